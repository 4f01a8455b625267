# DESIGN — a Lean 4 model of superjax/UBLOX_read

`/repo` is a C++ driver for u-blox GNSS receivers.  This directory holds a formal
model of its logic (`lean/Verif/Model`), small independent specifications
(`lean/Verif/Spec`), helper lemmas (`lean/Verif/Lemmas`) and the property theorems
(`lean/Verif/Props`).  `properties.jsonl` states the properties in English,
`MANIFEST.json` links each one to its theorems, `seeded/LOG.jsonl` records the wrong programs
the theorems were tested against.

## 1. Modelling conventions

* A byte is `BitVec 8`.  A C buffer is a `List Byte`, and every access in the model goes
  through a bounds check; an access out of bounds, a signed overflow, an out-of-range
  `double`-to-integer conversion, the use of an unterminated string, a call through a dangling
  pointer, or flowing off the end of a non-void function yields the distinct
  outcome `Except.error UB.…`, never a default value.
* A C++ object is a Lean structure with one field per C++ data member the code uses; a member
  function is a function returning the new structure and the list of observable effects
  (callbacks, serial writes, publications, file writes).
* Integers are `Nat`/`Int` except where wrap-around or overflow can occur, where they are
  `BitVec n`, `% 2^n`, or a checked operation returning `UB`.
* Floating point: where only the scaling matters (`Model/Scale`, `Model/Nav*`) a `double` is the exact
  product "raw integer times list of constants".  Where rounding matters (`UTCTime`, the ROS messages, observation
  times, ephemerides: `Model/Double`, `TimeDbl`, `RosDbl`, `ObsTime`, `EphDbl`) it is a rational number and every
  operation rounds to nearest-even at 53 bits (`rne`); overflow, infinities and NaN do not occur for the argument ranges
  stated, subnormal results are not produced by the modelled operations.  Fixed behaviour of compilers with
  extended-precision or fused operations is not modelled.
* Loops are structural recursions/folds over explicit index ranges.  The two spin loops
  (`get_version`, `wait_for_response`) are recursions over a schedule: the list of loop
  iterations, each with the bytes the reader thread processed before it and the clock reading.
  Where two threads run (listener registration, shared serial port, program shutdown) the model is a set of interleavings
  of the threads' atomic steps and the theorems quantify over all of them.
* When the property is false of the code, the negation is proved on a concrete witness or, where possible, for every
  input (`…_refuted`), and the strongest true part is proved as `…_partial`.  The MANIFEST status is then `partial`: what is
  missing cannot be proved because it is false.

## 2. Trusted base

* Lean 4.33.0's kernel.  Axioms used: at most `propext`, `Classical.choice`, `Quot.sound` (section 4 lists them per
  theorem, from `#print axioms`).  No axioms of our own, no `native_decide`, no `bv_decide`.
* The reading of `/repo`: every model definition cites the file and lines it models.  Nothing
  was compiled or run.
* The C++ semantics assumed: 8-bit bytes, little-endian target, `int` 32 bits, `int64_t`/`time_t` 64 bits, IEEE 754 binary64,
  structure layouts as fixed by `#pragma pack(1)`/`__attribute__((packed))`, `printf`/`std::set`/`std::map`/`std::vector`
  as in the standard.
* The specifications: UBX framing and checksum, RTCM3 framing and CRC-24Q, NMEA sentences, GPS/Galileo/GLONASS navigation
  message layouts, UBX payload layouts and configuration items are transcribed from public interface descriptions, not from
  the code; that the transcription is right is trusted.
* The `async_comm` library (serial port, UDP): one `write` call is atomic, received bytes arrive in order in one
  receive thread per link, a callback runs to completion before the next.  ROS: `publish` hands over the message as it is.

## 2a. What is modelled

| /repo | modelled in | not modelled |
|---|---|---|
| `src/parsers/ubx.cpp`, `ubx.h` | `Model/Ubx`, `UbxCmd` (framing, checksum, dispatch, version, waits, commands), `Screen` (printed text) | nothing (the `DBG` lines are compiled out: the macro is empty, ubx.cpp:36) |
| `include/UBLOX/parsers/ubx_defs.h` | payload layouts in `Spec/Msgs`, `Model/Msgs`, constants where used | structures and enumerators no code uses |
| `src/parsers/rtcm.cpp`, `src/crc.cpp` | `Model/Rtcm`, `Model/Crc`, `Screen` (printed text) | — |
| `include/UBLOX/parsers/msm.h`, `bitfield.h` | `Model/Msm`, `Model/BitField` (header, masks, MSM5 fields), `Model/MsmDbl` (scaling of MSM5) | MSM4 and MSM7 (these templates cannot be instantiated) |
| `src/parsers/nmea.cpp` | `Model/Nmea` | — |
| `src/parsers/nav.cpp`, `nav.h`, `geph.cpp` | `Model/Nav`, `NavGps`, `NavGal`, `NavGlo`, `Scale`, `EphDbl`, `Tables`, `EphStream`, `NavScreen` | lines 450-465 (empty stubs) |
| `include/UBLOX/bit_tools.h` | `Model/BitTools` | — |
| `src/obs.cpp` | `Model/ObsTime` | — |
| `src/utctime.cpp`, `utctime.h` | `Model/Time`, `TimeDbl`, `TimePrint`, `TimeWeek` | the clock itself (a parameter of `now`) |
| `src/ublox.cpp`, `ublox.h` | `Model/Device` (dispatch, roles, constructor), `Screen` (text of the constructor), `Process` (several devices, static variables), `RoleRace` (statements of the configuration calls interleaved with reception) | — |
| `serial_interface.h`, `async_comm_adapter.h` | `Model/Listeners`, `SharedPort` | constructors of the adapters |
| `src/examples/logger.h` | `Model/Logger`, `Model/LogDisk` | — |
| `src/examples/read_log.cpp` | `Model/ReadLog` (file handling), `ExamplePrint`, `EphPrint`, `PrintNum`, `Programs` (arguments) | — |
| `src/examples/read_serial.cpp` | `Model/ReadSerial`, `ReadSerialRun` (satellite lists), `Lifetime`, `ExamplePrint`, `Programs` (arguments) | — |
| `src/examples/{base,rover}.cpp` | `Model/SharedPort`, `Lifetime`, `ExamplePrint`, `PrintNum` (handlers and output), `Ros` (rover status line), `Programs` (arguments) | — |
| `src/ros/ublox_ros.cpp` | `Model/Ros`, `RosDbl`, `RosEph`, `RosNode`, `Programs` (parameters) | ROS itself, `main` |

The two threads of a device run `read_cb` (receive thread) and configuration calls (main thread).  Except where a property is
about interleavings (C17, C18, C33, C98, C99, …) a call is one atomic step of the model: the data races of the
unsynchronised members are not modelled there.

### The model replays the project's own tests

`Verif/Props/Conformance.lean` evaluates, in the kernel and on the model, every expectation of the project's unit tests
that compile (src/test/test_bit_tools.cpp, test_bitfield.cpp, test_time.cpp, test_eph.cpp), with the tests' own data
(`Verif/Spec/TestData.lean`, transcribed from the literals): bit extraction and insertion, times, and the complete decoding
of the recorded GPS subframes, of 61 GLONASS strings and of 23 Galileo pages, doubles included.  The model meets all of
them, except the eleven Galileo expectations whose tolerance is smaller than the rounding of the printed literal (no
transmitted integer can meet those, `no_tgd`; they are met to the printed precision), and it shows that two of the
`BitField` expectations read one byte past the test's own union.  This is validation of the transcription, not a claim.

## 2b. Defects the refutations exhibit

Every `…_refuted` theorem is a defect of the code, or a reading of its interface the code does not honour.  The main ones:
a zero-length UBX header wedges the parser (C06, C07); an RTCM3 length of 1019..1023 overruns the buffer (C26);
an NMEA line over 82 characters is read beyond its buffer and `new_data` is never set (C63, C76); logs beyond 2 GiB
(C64); `read_log` always ends in an exception; RAWX messages with more than 30 measurements; survey-in positions declared
unsigned (C78); `start_survey_in` sends stale bytes (C21, C75), with a limit of 0.3 mm (C103); configuration items wider
than their keys (C102); character format in the wrong field (C103); GPS and Galileo ephemerides share one table (C51);
leap seconds have the wrong sign (C128, C129); `fromGPS`, observation time and negative `double` seconds (C45-C47, C71); the ROS
node keeps a dangling serial pointer, never registers its ephemeris callbacks, never resizes its observation message and is
off by one in its frequency table; operator precedence in the LLI test; heading accuracy in integer radians; MSM objects
read themselves instead of the message and miss a `return` (C68, C96); the scaling constants below 2^-31 are not powers of
two; listener lists without synchronisation (C98); corrections written into the middle of commands (C99); role and
link set and read without synchronisation (C132); a recorder that does not notice a full disk (C137); unpadded times (C97).  The notes in MANIFEST.json say, per property, what is false and what is proved instead.

## 3. Plan per property (what is modelled, how it is proved)

* **C01** — UBX model (`Model/Ubx`), history invariant by induction over the byte list.
* **C02** — Direct symbolic run of the model over the frame bytes, induction on the payload.
* **C03** — send_message model composed with C02.
* **C04** — foldlM over append; for both the device and the RTCM parser.
* **C05** — Model returns UB on out-of-range store; theorem: framing of every stream returns ok (UB only from version_cb, separated).
* **C06** — FALSE (zero length wedges).  Refuted by witness + partial for non-zero length: measure decreasing.
* **C07** — FALSE.  Refutation: after a zero-length frame every continuation delivers nothing (proved for all continuations).
* **C08** — Direct run of six bytes.
* **C09** — Fold vs. closed-form weighted sums mod 256 (spec by sums over indices).
* **C10** — Arithmetic mod 256 on the closed form + the parser run on the damaged frame.
* **C11** — Subscription set model; dispatch = filter; events of a frame.
* **C12** — Invariant: counter = number of true results mod 2^32; errors via a rejection spec.
* **C13** — Invariant relating the flag with an independent scanner of the stream.
* **C14** — FALSE (stale bytes).  Refuted by witness; partial: first len bytes.
* **C15** — version_cb model on rows; atoi model; theorem for all digit strings up to 4, over the documented report layout (Spec/MonVer); witness for labels left by earlier messages.
* **C16** — FALSE (5-character version runs atoi off the end; unterminated module name printed).  Refuted; partial with terminated rows.
* **C17** — Schedule model of the spin loop.
* **C18** — Same.
* **C19** — Constructor model over poll outcomes; writes as list of frames.
* **C20** — Each command writes one frame; by induction over the command list.
* **C21** — FALSE for start_survey_in (no memset).  Partial for the others.
* **C22** — RTCM model, history invariant.
* **C23** — Direct run, induction on payload.
* **C24** — FALSE for payload 1019..1023.  Refuted; partial for streams whose headers never announce more than 1018.
* **C25** — Measure argument.
* **C26** — FALSE (set on bad CRC).  Refuted; partial: set iff a frame completed, and cleared by reading.
* **C27** — Polynomial remainder spec over GF(2) as bit lists/bitwise CRC; table equality by kernel evaluation over all 256 entries.
* **C28** — Linearity of CRC; injectivity for bursts; parity via factor (x+1); two-bit via order of x modulo the polynomial.
* **C29** — Direct runs.
* **C30** — Device model; induction over the frame list with the idle invariant.
* **C31** — Case analysis of the per-byte dispatcher.
* **C32** — Invariant over histories of device operations.
* **C33** — Composition of C30 and the rover model.
* **C34** — FALSE (listener registered twice).  Refuted; partial: exactly as many times as config_base was called.
* **C35** — testBit characterisation of getBit, loop invariant over bytes.
* **C36** — From C35 by the sign rule.
* **C37** — Extensional bit-level spec of setBit.
* **C38** — From C35 and C37.
* **C39** — From C35.
* **C40** — FALSE for KeepByteOrder.  Refuted; partial for Switch order (size ≤ 25).
* **C41** — Integer arithmetic on nanoseconds.
* **C42** — FALSE at exactly 10^9.  Refuted; partial: 0 ≤ nsec ≤ 10^9.
* **C43** — Integer arithmetic.
* **C44** — FALSE (×10^9 instead of ×10^6).  Refuted; partial: whole seconds.
* **C45** — FALSE for same reason.  Partial: whole seconds.
* **C46** — FALSE (uses the reference's day).  Partial: right time of day, within 24 h.
* **C47** — FALSE (+ drops the nanoseconds).  Partial: whole-second part agrees.
* **C48** — Encoder spec per IS-GPS-200 (bit positions as data), decoder model, theorem for all parameter values.
* **C49** — FALSE (subframe 3 IODE is overwritten).  Refuted; partial: flags and IODE/IODC agreement.
* **C50** — Bit-level: subframe bytes depend only on bits 6..29.
* **C51** — FALSE across constellations (shared eph_ map).  Refuted; partial within a constellation.
* **C52** — Linear code over GF(2): mask matrix columns, lifted to all strings.
* **C53** — History invariant over messages.
* **C54** — Arithmetic on toe/tof adjustments.
* **C55** — Encoder spec per ICD; decoder model.
* **C56** — Case analysis.
* **C57** — Model of page handling; CRC spec from C27.
* **C58** — Partially false (flags not reset ⇒ re-emission).  Consistency proved.
* **C59** — FALSE for svId 0.  Refuted; partial for 1..36 (0 excluded).
* **C60** — Model total: theorem returns ok except week overflow; see statement.
* **C61** — FALSE (missing returns).  Refuted; partial.
* **C62** — FALSE.  Refuted; partial.
* **C63** — FALSE (true on any newline; unterminated print).  Partial: no store out of bounds.
* **C64** — Chunking model.
* **C65** — Case analysis over all Int pairs.
* **C66** — FALSE.  Refuted; partial.
* **C67** — FALSE.  Refuted; partial.
* **C68** — Object memory layout, loops with bounds; FALSE of a message: the masks are read from the object's own, just overwritten, members.
* **C69** — Exact rational comparison of each literal.
* **C70** — FALSE.  Refuted; partial: streams without the known-bad messages.
* **C72** — FALSE (zero-length UBX header wedges the device).  Refuted; partial: bound when no zero-length header.
* **C73** — Product scanner projected to its UBX component.
* **C74** — FALSE (old rover adapter callback stays installed).  Refuted; base to rover proved.
* **C75** — Command model run from any reachable device; stationary base FALSE (stale bytes, C21).
* **C76** — Model of the 82-byte buffer and of printf; FALSE (stale bytes, 82 characters).  Exact for clean lines of at most 81.
* **C77** — Model of callback slot and listener list; all registration histories.
* **C78** — Struct layouts computed from the declarations; documented offsets in Spec/Msgs.  FALSE for SVIN signs, RAWX sizes.
* **C79** — ROS callbacks over exact rationals against Spec/Msgs.
* **C80** — Same; FALSE for heading accuracy.
* **C81** — Same; FALSE (scale, sign).
* **C82** — Model with vector bounds; FALSE for every non-empty message.
* **C83** — Loop model with array bounds; FALSE beyond 30.
* **C84** — Bit model of the condition; FALSE (precedence).
* **C85** — Node constructor as device events; corollary of C87; FALSE.
* **C86** — FALSE (&& for &).
* **C87** — Device invariant plus counts of callbacks over whole histories.
* **C88** — Same model; the function has no return statement at its end: FALSE.
* **C89** — Results of all new_data calls in a history, by induction on the history: FALSE (flag never set).
* **C90** — Model of ephCB/gephCB with the member widths; field-range invariant of all three decoders along every history, hence no truncation.
* **C91** — Bit-exact model of IEEE rounding; error bounds of the three roundings in toSec, monotonicity of rounding, composition with UTCTime(double).
* **C92** — Model of the double time of week from its 64 bits and its conversion to int; exact characterisation of the resulting stamps, FALSE of the code.
* **C93** — The three callbacks in IEEE arithmetic; propagation of relative errors through products of rounded literals.
* **C94** — The main program of read_log composed of the modelled Logger and constructor; induction over the polls shows that silence ends in the exception.
* **C95** — Evaluation of the symbolic products in the IEEE model; an invariant of all histories bounds every member (generic lemma kept_run), C69 bounds the error, exactness of power-of-two scaling.
* **C96** — The integer each loop stores for a value read, against two's complement; FALSE for negative numbers.
* **C97** — operator<< over a gmtime parameter; the Gregorian calendar is specified independently in Spec/Calendar (days to a year, days before a month) and shown total and unique; decimal text is shown injective by splitting at separators.
* **C98** — Model/Listeners: two threads over a std::vector with explicit storage (allocation number, capacity, iterators), interleaved event by event; an invariant relates the calls made to those due (a function of the observable history alone), a measure gives progress; a concrete schedule refutes the unrestricted claim.
* **C99** — Model/SharedPort: the nine writes of send_message and the link's writes as interleaved events on one port; an invariant says the bytes sent are whole units plus a beginning of the command in progress; refutation by inserting after the first write, for all commands and buffers.
* **C100** — Each decoder reports at most one ephemeris and keeps the satellite and constellation written by convertUBX (GLONASS: writes them from the message); counting registrations along the history by induction.
* **C101** — The two callbacks over std::set modelled as sorted insertion; membership by induction over the calls, origin of the satellites from C100.
* **C102** — Spec/ConfigItems gives the receiver's grammar of CFG-VALSET/CFG-VALGET payloads (width of a value from bits 28..30 of its key) as an inductive relation; Props/ConfigItems proves an equivalence saying exactly when and how the message of a `configure` call is in it, for all arguments and states.
* **C103** — Spec/Settings decodes CFG-PRT, CFG-NAV5 and CFG-TMODE3 payloads by their documented fields; Props/Settings decodes what each call sends, in every state.
* **C104** — Objects, wiring and statements of the three main functions; a run is any interleaving with deliveries. Safety of all interleavings is proved equivalent to harmlessness of every delivery between any two statements, which is then evaluated for the programs.
* **C105** — printf calls modelled as lists of text pieces and fixed-point conversions of exact values; compared with lines built from the documented fields (Spec/Msgs) for every payload.
* **C106** — The ten loops of MSM5::decode as a list of (width, first bit, count); compared with a separate list of the documented fields and the place behind the cell mask.
* **C107** — The constructor and destructor of the node as programs of the lifetime model of C104, whose deliveries now list who is called.
* **C108** — The two callbacks as functions to text, with the clock and gmtime as parameters; dates by C97.
* **C109** — On top of C18: the messages that arrive in the gap and during the wait by the reference scanner; ACK-ACK payload from the interface description.
* **C110** — Constants as declared; documented bit numbers and states in Spec/MsgsMon; bitwise reasoning for all words.  FALSE for MON-TXBUF and FIXED.
* **C111** — Little-endian bit numbering in Spec/BitField; loop invariant on test bits.  FALSE at the end of the array and for wide fields.
* **C112** — Whole-device invariant that tracks the operations told to the decoder next to the received history (Spec/NavInput).
* **C113** — Composition of C112 with the transmitter-side theorem of C48 and with C100.
* **C114** — Process model with the static variables shared (Model/Process); each member function is shown to commute with a change of the shared variables as long as no Galileo subframe message is in the receiver's stream (UBX parser abstraction), and a relation between the joint and the solitary run is kept (Lemmas/Process).
* **C115** — Invariant relating both scanners' states to the suffix of the received bytes, for every role (Props/Contiguous), on top of the per-byte simulation of C30.
* **C116** — Exact characterisation (iff) of definedness from the exact float-to-int conversion and the int arithmetic of fromGPS.
* **C117** — Composition of C112 (the decoder is told exactly the good SFRBX frames) with c58_transmitted (an encoder for the ICD words); the decoder only looks at the 32 bytes of the page.
* **C118** — Invariant: the decoder's reference time is the time of ephemeris of the last GPS report; then C112's tracking of the decoder's input and c55_transmitted.
* **C119** — Simulation: receiving never reads the outgoing buffer or the flags, sending reads nothing that receiving writes; both by induction over the interleaving.
* **C120** — Every write of a base is a whole valid frame (induction over its events, from C32), whole frames leave the rover's debugging parser between messages (C23), and the forwarder copies (C32).
* **C121** — From C06/C25: idle within the bound at some byte; from there an idle parser inside a clean frame stays idle to its end (scanner run without start sequence) and C02/C23 apply to all later frames.
* **C122** — From C30/C73 (effects are those of the messages the stream splits into) and a proof about the splitting alone: induction over the garbage, with a cut inside a clean message losing at most that message.
* **C123** — The effects of a stream are those of the messages it splits into (C30, C73); the output of the handlers is folded over them, with C78/C105 for each payload and a lemma that a field inside the payload reads the same in the 2048-byte buffer.
* **C124** — From C112 (what the decoder is told), C100 (attribution), C113/C117/C118 (transmitted data sets are reported) and the lemma of C101 on the sets kept by the callbacks.
* **C125** — Relative errors of at most 2^-53 per rounding, composed: product of near values, sum of nonnegative near values; the decimal constants are evaluated exactly.
* **C126** — Invariant over the decoder's history: the satellite numbers of the records are distinct and exactly those heard (each message replaces the record of its satellite or appends one); the device's decoder state is always such a history (invariant of C87).
* **C127** — Both devices are tracked against the same history (C87): parser positions, recipients and forwarding links are functions of the history, so each step shows the same messages; the decoder reads only bytes inside a complete payload; the stack array is overwritten before it is read (C61's bit map).
* **C128** — The specification (Spec/TimeScale) defines the scales from their interface documents over the calendar of C97; exact integer arithmetic on top of C44 and C45.
* **C129** — Integer division facts; the specification says when an instant lies in a week without dividing.
* **C130** — Conversions modelled digit by digit (correct rounding, ties to even, as glibc); the specification reads the text back as a number and never mentions the conversion. Induction over the pieces of the output and the effects of the device.
* **C131** — C130's conversion of doubles, C95 (the members' values), C97 (dates) and the ranges of C90, for the reports of every history.
* **C132** — Two-thread model at statement level (Model/RoleRace); invariant over all schedules (interface set before listener registered); simulation with the mixed scanner of C30 for the first config_base; the refutations are concrete schedules; uninterrupted schedules are shown equal to Model/Device.
* **C133** — Each subframe is a move on the satellite's entry (update, then report if the three flags and the issue members agree); five moves from an arbitrary entry are followed by cases on where the first report falls; for new issues an invariant that no issue member equals the new number. Then lifted through C112.
* **C134** — Invariant of a stretch of one data set (issue members only become the new issue; flags only grow unless a report clears them; after a report everything collected is of this data set; after any message the entry is not complete), composed over the stretches; contradiction if nothing is reported.
* **C135** — The demultiplexer of C30 (and the scanner of C73) skips text: no byte of it is D3, and B5 62 does not occur in it or across its beginning; induction over the pieces. Definedness by induction over the pieces, with C30 for the messages.
* **C136** — Invariant: disk ++ waiting bytes is what was given, as long as nothing failed, and disk is a prefix of it always; prefixes of the byte stream give prefixes of the effects (C04).
* **C137** — Same model; after a failure the stream is bad for ever, which no call tests.
* **C138** — Delivery by C02/C14, then little-endian arithmetic on the buffer the listener gets (payload followed by what was there).
* **C139** — Printed text of read_cb modelled (Model/Screen); simulation with the frame scanner; C15 for the contents.
* **C140** — Printed text of read_cb modelled (Model/Screen); per-byte simulation with the frame scanner of C22, by a copy of the parser with one listener; induction over the stream.
* **C141** — Polling loop with its output (Model/Screen), all outcomes from C19; the loop without its texts is the loop of C19 (tryTrace_effs).
* **C142** — Case analysis over the two tables, for every measurement.
* **C143** — The invariant of C57 (what the page store holds) determines the branch taken by the message functions, which follow the code.
* **C144** — Set-up of the programs as data, the link by C120.
* **C145** — Case analysis on the argument list; independence of the parameter.
* **C146** — Invariant: both parsers are where the mixed scanner is after the bytes received since; composition of stages.
* **C147** — The proofs of C113, C117, C118 and C134 from what the decoder was told (C146).
* **C148** — Inductive executions of the pair; invariant: what the base sent is what its run writes, what the rover's receiver got are the delivered datagrams, and the monitor of the rover's link is between frames.
* **C149** — Induction over the histories of the parser: only a byte completing a good MON-VER frame changes the version, and then to what the frame says (C15); constructor through C19.
* **C150** — Invariant of a device that has received a harmless stream (parser histories, RTCM parser has seen exactly the bytes outside UBX frames, decoder was told GPS messages only); every byte step is total under it; induction over bytes, polls, tries and events. For a base the same on top of the BTrack invariant of C143; well-formed messages are shown to be harmless wherever their bytes are cut.
* **C151** — Every call of a device is traced to the message that made it (C146), then the decoder's theorems C49, C53, C58 give the messages it was put together from, and the relation between payload and decoded message carries their contents back to the received payloads.
* **C152** — Invariant on histories: entries of satellites that send GPS have a week before 2038, hence so has the reference time; each next message is defined by c61_lenient_partial, the dates of Galileo pages by their week numbers.
* **C153** — The invariant of C150 is stated for any stream for which a decoder that is told its navigation messages is defined; C152 shows that for these streams.

## 4. Axioms of the manifest theorems

Output of `#print axioms`, grouped (namespace `Ublox.` omitted).

* **no axioms** (6 theorems): `UTCTime.c128_clock`, `UTCTime.c42_refuted`, `UTCTime.c44_refuted`, `UTCTime.c45_refuted`, `UTCTime.c46_refuted`, `UTCTime.c47_refuted`.
* **`propext`** (26 theorems): `Life.c104_calls`, `Life.c104_last_window_refuted`, `Life.c104_failed_construction_refuted`, `Life.c104_rover_link`, `Life.c107_rover_refuted`, `c111_switch_refuted`, `Recorder.c136_prefix`, `Recorder.c136_complete`, `Recorder.c137_partial`, `Recorder.c137_refuted`, `Programs.c144_ros_partial`, `Programs.c144_ros_refuted`, `Programs.c144_ros_clash_refuted`, `Programs.c145_ros_refuted`, `Rtcm.c26_refuted`, `Nmea.c63_stores_in_bounds`, `Nmea.c63_true_iff_partial`, `Logger.c64_record`, `Msm.c68_refuted`, `c78_svin_refuted`, `Msm.c96_refuted`, `Conc.c98_register_first`, `Conc.c98_schedule_refuted`, `Conc.c98_logger_refuted`, `Port.c99_whole_partial`, `Port.c99_refuted`.
* **`Quot.sound`, `propext`** (83 theorems): `Dev.c04_chunking`, `Dev.c04_two_ways`, `Dev.c04_rtcm`, `Nav.c100_attributed`, `Life.c104_running`, `Life.c104_partial`, `Life.c104_refuted`, `Life.c104_links_first`, `Life.safe_iff`, `Print.c105_negative_refuted`, `Msm.c106_order_partial`, `Msm.c106_refuted`, `Msm.c106_outside_refuted`, `Life.c107_constructing_partial`, `Life.c107_refuted`, `Life.c107_others_safe`, `Life.c107_down`, `c11_subscribe`, `c111_tail_refuted`, `Proc.c114_refuted`, `Dev.c115_refuted`, `Dev.c127_refuted`, `UTCTime.c129_week_partial`, `UTCTime.c129_gps_partial`, `UTCTime.c129_refuted`, `Dev.c132_uninterrupted_rx`, `Dev.c132_base_to_rover_refuted`, `Dev.c132_rover_to_base_refuted`, `Nav.c133_zero_refuted`, `Ubx.c138_refuted`, `c16_refuted`, `c16_refuted_name`, `Dev.c31_ubx_in_progress`, `Dev.c31_rtcm_in_progress`, `Dev.c34_refuted`, `c36_twosComp_range`, `c40_refuted`, `UTCTime.c41_exact`, `UTCTime.c41_inverse`, `UTCTime.c43_strict_total`, `UTCTime.c44_overflow`, `Nav.c48_order_refuted`, `Nav.c49_issue3_refuted`, `Nav.c51_shared_refuted`, `Nav.c52_rule`, `Nav.c52_accepts_valid`, `Nav.c52_single_flip`, `Nav.c52_double_flip`, `Nav.c52_padding`, `Nav.c60_mixed_refuted`, `Nav.c61_witnesses_refuted`, `Nav.c62_witnesses_refuted`, `Nmea.c63_refuted`, `Nmea.c63_parsing`, `Nmea.c63_sentence_end`, `Logger.c64_long_logs`, `Logger.c64_refuted`, `Logger.c64_modes`, `Dev.c70_refuted`, `Dev.c74_refuted`, `Dev.c75_refuted`, `Nmea.c76_sentences_partial`, `Nmea.c76_max_length`, `Nmea.c76_refuted`, `Nmea.c76_line_survived`, `SerialIf.c77_fanout`, `c78_nav_pvt`, `c78_nav_relposned`, `c78_nav_posecef`, `c78_nav_velecef`, `c78_rxm_sfrbx`, `c78_nav_svin_partial`, `c78_rawx_refuted`, `c78_ack`, `c78_mon_txbuf`, `Ros.c86_status_partial`, `Ros.c86_refuted`, `Msm.c88_never_succeeds`, `Nmea.c89_refuted`, `UTCTime.c97_range`, `Conc.c98_refuted`, `Port.c99_alone`, `Port.c99_lost_refuted`.
* **`Classical.choice`, `Quot.sound`, `propext`** (351 theorems): `c01_delivered_was_received`, `c02_frame_is_delivered`, `c03_round_trip`, `c05_framing_in_bounds`, `c06_refuted`, `c06_partial`, `c07_refuted`, `c08_oversized`, `c09_checksum`, `c10_replaced_byte`, `c10_swapped_payload`, `c10_swapped_class_id`, `ReadSerial.c101_found`, `c102_configure_exact`, `c102_partial`, `c102_first_item_partial`, `c102_refuted`, `c102_rover_refuted`, `c102_poll_refuted`, `c103_port_partial`, `c103_format_refuted`, `c103_model_old_partial`, `c103_model_new_refuted`, `c103_survey_partial`, `c103_survey_refuted`, `Print.c105_pvt_partial`, `Print.c105_fraction_refuted`, `Print.c105_rawx_partial`, `Print.c105_rawx_refuted`, `Print.c105_svin_partial`, `Print.c105_svin_refuted`, `Print.c108_glonass`, `Print.c108_eph_partial`, `Print.c108_tof_refuted`, `Print.c108_galileo_refuted`, `Print.c108_totals`, `c109_partial`, `c109_foreign_refuted`, `c109_early_refuted`, `c11_dispatch`, `c110_flags_partial`, `c110_states_partial`, `c110_txbuf_refuted`, `c110_fixed_refuted`, `c111_keep_partial`, `c111_wide_refuted`, `c111_switch_partial`, `Dev.c112`, `Dev.c113`, `Proc.c114_defined_refuted`, `Proc.c114_partial`, `Proc.c114_defined_partial`, `Dev.c115_partial`, `Ros.c116_refuted`, `Ros.c116_convert_partial`, `Ros.c116_ros_partial`, `Dev.c117`, `Dev.c118`, `Ubx.c119_receiving`, `Ubx.c119_sending`, `c12_counters`, `c12_true_results`, `Dev.c120_lossy_link`, `Ubx.c121_ubx`, `Rtcm.c121_rtcm`, `Dev.c122_base`, `Dev.c122_not_base`, `Print.c123_rover_partial`, `Print.c123_base_partial`, `Print.c123_read_log_partial`, `Print.c123_rover_words`, `Print.c123_rover_refuted`, `ReadSerial.c124_only_received`, `ReadSerial.c124_only_complete`, `ReadSerial.c124_stays`, `ReadSerial.c124_gps`, `ReadSerial.c124_galileo`, `ReadSerial.c124_glonass`, `Msm.c125_fine`, `Msm.c125_whole`, `Msm.c125_range_partial`, `Msm.c125_range_refuted`, `Nav.c126_records`, `Dev.c126_device`, `Dev.c127_same_partial`, `Dev.c127_base_partial`, `Dev.c127_stack`, `UTCTime.c128_glonass_partial`, `UTCTime.c128_difference_partial`, `UTCTime.c128_gps_refuted`, `UTCTime.c129_glonass_partial`, `UTCTime.c129_gps_inverse`, `c13_parsing`, `c13_open_frame`, `Print.c130_fixed`, `Print.c130_general`, `Print.c130_pvt`, `Print.c130_svin`, `Print.c130_relposned`, `Print.c130_programs`, `Print.c130_read_log`, `Print.c130_base`, `Print.c131_partial`, `Print.c131_refuted`, `Dev.c132_safe`, `Dev.c132_intact`, `Dev.c132_one_link`, `Dev.c132_first_base_partial`, `Dev.c132_progress`, `Dev.c132_uninterrupted_calls`, `Nav.c133_stabilises`, `Nav.c133_new_issue`, `Dev.c133_device`, `Nav.c134`, `Dev.c134_device`, `Dev.c135_base`, `Dev.c135_total`, `Dev.c135_not_base`, `Recorder.c136_replay`, `Ubx.c138_partial`, `Ubx.c138_narrow_partial`, `MonVer.c139_report_partial`, `MonVer.c139_refuted`, `Ubx.c139_banner_partial`, `Ubx.c139_count`, `c14_partial`, `c14_refuted`, `Rtcm.c140_stream`, `Dev.c141_partial`, `Dev.c141_refuted`, `Ros.c142_partial`, `Ros.c142_refuted`, `Nav.c143_galileo`, `Nav.c143_success`, `Nav.c143_glonass`, `Nav.c143_silent`, `Programs.c144_link`, `Programs.c144_examples`, `Programs.c145_read_serial_partial`, `Programs.c145_read_log`, `Dev.c146`, `Dev.c146_moment`, `Dev.c146_link`, `Dev.c147_gps`, `Dev.c147_gps_any`, `Dev.c147_gal`, `Dev.c147_glo`, `Dev.c148`, `Dev.c148_in_order`, `Dev.c148_deliver`, `Ubx.c149_known`, `Ubx.c149_commands`, `Dev.c149_setup`, `Dev.c149_life`, `Dev.c149_roles`, `MonVer.c15_report_partial`, `MonVer.c15_refuted`, `MonVer.c15_refuted_far`, `c15_version_partial`, `Dev.c150_connect`, `Dev.c150_connected`, `Dev.c150_life`, `Dev.c150_base`, `Dev.c150_base_messages`, `Dev.c151_gps_latest`, `Dev.c151_galileo_latest`, `Dev.c151_glonass_latest`, `Dev.c151_gps`, `Dev.c151_galileo`, `Dev.c151_glonass`, `Nav.c152`, `Dev.c153_connect`, `Dev.c153_life`, `Dev.c153_base`, `Dev.c153_base_messages`, `c16_partial`, `c17_answer`, `c17_timeout`, `c17_terminates`, `c18_answer`, `c18_terminates`, `Dev.c19_constructor`, `Dev.c19_terminates`, `c20_only_frames`, `c21_partial`, `c21_survey_partial`, `c21_refuted`, `Rtcm.c22_forwarded_was_received`, `Rtcm.c22_stream`, `Rtcm.c23_frame_is_delivered`, `Rtcm.c24_refuted`, `Rtcm.c24_partial`, `Rtcm.c25_idle_again`, `Rtcm.c26_partial`, `c27_crc24`, `c27_toPoly_faithful`, `c28_burst`, `c28_odd`, `c28_two`, `c28_example_valid`, `Rtcm.c29_zero_length`, `Rtcm.c29_wrong_crc`, `Dev.c30_any_stream`, `Dev.c30_lossless`, `Dev.c30_total`, `Dev.c30_link`, `Dev.c32_receiver_data`, `Dev.c32_rtk_data`, `Dev.c32_unconfigured`, `Dev.c32_rover_stream`, `Dev.c32_other_calls`, `Dev.c33_end_to_end`, `Dev.c33_rover_total`, `Dev.c34_partial`, `c35_getBit`, `c35_getBitRt`, `c35_locality`, `c36_getBitS`, `c36_getBitRtS`, `c37_setBit`, `c37_setBitRt`, `c38_roundtrip`, `c38_roundtripRt`, `c39_getBitGlo`, `c40_switch_partial`, `c40_update_partial`, `c40_keep_partial`, `UTCTime.c41_repr`, `UTCTime.c42_normal_partial`, `UTCTime.c42_ctor_partial`, `UTCTime.c43_order`, `UTCTime.c44_fromGPS_partial`, `UTCTime.c45_fromGlonass_partial`, `UTCTime.c46_tod_partial`, `UTCTime.c47_int_partial`, `Nav.c48_reported_partial`, `Nav.c48_exact_partial`, `Nav.c49_consistent_partial`, `Nav.c50_data_bits_only`, `Nav.c51_isolated_partial`, `Nav.c51_glonass_isolated`, `Nav.c52_rejected_ignored`, `Nav.c53_single_frame`, `Nav.c53_frame_exists`, `Nav.c54_times_closest`, `Nav.c55_transmitted`, `Nav.c55_exact`, `Nav.c55_total`, `Nav.c56_ignored`, `Nav.c57_rejected`, `Nav.c57_stored`, `Nav.c57_burst`, `Nav.c57_odd`, `Nav.c57_two`, `Nav.good_pages`, `Nav.c58_consistent`, `Nav.c58_reported`, `Nav.c58_transmitted`, `Nav.sentPage_exists`, `Nav.c58_toe_closest`, `Nav.c59_memory_partial`, `Nav.c59_satellite0_refuted`, `Nav.c60_gps_defined`, `Nav.c60_memory_safe`, `Nav.c60_gps_defined_lenient`, `Nav.c60_gps_only_partial`, `Nav.c61_causes_partial`, `Nav.c61_lenient_partial`, `Nav.c61_other_refuted`, `Nav.c61_glonass_refuted`, `Nav.c62_galileo`, `Nav.c62_glonass_partial`, `Nav.c62_gps_refuted`, `Logger.c64_replay_partial`, `Logger.c64_same_callbacks_partial`, `c65_sys`, `c65_unambiguous`, `c65_sig`, `c65_injective`, `c65_type`, `c65_names`, `Ros.c66_ecef_partial`, `Ros.c66_velocity_refuted`, `Ros.c66_count_refuted`, `Ros.c66_refuted`, `Ros.c67_freq_partial`, `Ros.c67_refuted`, `Msm.c68_header_partial`, `Msm.c68_masks_ignored`, `Msm.c68_again`, `Nav.c69_constants`, `Nav.c69_msm`, `Nav.c69_fields`, `Dev.c70_receiver_partial`, `Dev.c70_base_partial`, `Dev.c70_rtk_partial`, `Dev.c70_calls`, `Dev.c70_rtcm_refuted`, `UTCTime.c71_ieee_partial`, `UTCTime.c71_ieee_refuted`, `Dev.c72_refuted`, `Dev.c72_partial`, `Dev.c73_not_base`, `Dev.c74_base_to_rover`, `Dev.c74_partial`, `Dev.c75_rover`, `Dev.c75_moving_base`, `Dev.c75_stationary_base_partial`, `c78_rxm_rawx_partial`, `c78_mon_comms_partial`, `c78_mon_ver_refuted`, `Ros.c79_pvt`, `Ros.c80_relpos_partial`, `Ros.c80_refuted`, `Ros.c81_survey_partial`, `Ros.c81_refuted`, `Ros.c81_sign_refuted`, `Ros.c82_refuted`, `Ros.c82_fields_partial`, `Ros.c83_convert_partial`, `Ros.c83_refuted`, `Ros.c84_lli_partial`, `Ros.c84_convert_partial`, `Ros.c84_refuted`, `Ros.c85_subscriptions_partial`, `Ros.c85_refuted`, `Dev.c87_only_asked`, `Msm.c88_runs_off_end_partial`, `Ros.c90_published`, `UTCTime.c91_accurate`, `UTCTime.c91_monotone`, `Ros.c92_convert_partial`, `Ros.c92_ros_partial`, `Ros.c92_ros_exact`, `Ros.c92_refuted`, `Ros.c93_pvt`, `Ros.c93_relpos`, `Ros.c93_survey`, `Ros.c93_survey_hp`, `Ros.c93_lossless`, `Logger.c94_refuted`, `Logger.c94_throws`, `Nav.c95_faithful`, `Nav.c95_exact`, `Nav.c95_constants`, `Msm.c96_fine_partial`, `UTCTime.c97_calendar`, `UTCTime.c97_distinct`, `Conc.c98_deliver_partial`, `Conc.c98_progress_partial`, `Port.c99_writes`.
