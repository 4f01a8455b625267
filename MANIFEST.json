{
 "claims": [
  {
   "property": "C01",
   "status": "proved",
   "theorems": [
    "Ublox.c01_delivered_was_received"
   ],
   "note": ""
  },
  {
   "property": "C02",
   "status": "proved",
   "theorems": [
    "Ublox.c02_frame_is_delivered"
   ],
   "note": "Payload lengths 1..2048; for MON-VER frames, provided the version parser stays defined (C16)."
  },
  {
   "property": "C03",
   "status": "proved",
   "theorems": [
    "Ublox.c03_round_trip"
   ],
   "note": "For MON-VER messages provided the version parser stays defined (C16)."
  },
  {
   "property": "C04",
   "status": "proved",
   "theorems": [
    "Ublox.Dev.c04_chunking",
    "Ublox.Dev.c04_two_ways",
    "Ublox.Dev.c04_rtcm"
   ],
   "note": ""
  },
  {
   "property": "C05",
   "status": "proved",
   "theorems": [
    "Ublox.c05_framing_in_bounds"
   ],
   "note": ""
  },
  {
   "property": "C06",
   "status": "partial",
   "theorems": [
    "Ublox.c06_refuted",
    "Ublox.c06_partial"
   ],
   "note": "The full property is false of the code (zero-length frames); proved: the bound holds unless a zero-length header is open."
  },
  {
   "property": "C07",
   "status": "partial",
   "theorems": [
    "Ublox.c07_refuted"
   ],
   "note": "False of the code: after any zero-length frame nothing is ever delivered again (proved for every reachable idle state and every later stream). Resynchronisation otherwise: C121."
  },
  {
   "property": "C08",
   "status": "proved",
   "theorems": [
    "Ublox.c08_oversized"
   ],
   "note": ""
  },
  {
   "property": "C09",
   "status": "proved",
   "theorems": [
    "Ublox.c09_checksum"
   ],
   "note": ""
  },
  {
   "property": "C10",
   "status": "proved",
   "theorems": [
    "Ublox.c10_replaced_byte",
    "Ublox.c10_swapped_payload",
    "Ublox.c10_swapped_class_id"
   ],
   "note": ""
  },
  {
   "property": "C100",
   "status": "proved",
   "theorems": [
    "Ublox.Nav.c100_attributed"
   ],
   "note": ""
  },
  {
   "property": "C101",
   "status": "proved",
   "theorems": [
    "Ublox.ReadSerial.c101_found"
   ],
   "note": "Of the printed text only the totals and lists are modelled here; the announcements are C108, the way from the serial line C124."
  },
  {
   "property": "C102",
   "status": "partial",
   "theorems": [
    "Ublox.c102_configure_exact",
    "Ublox.c102_partial",
    "Ublox.c102_first_item_partial",
    "Ublox.c102_refuted",
    "Ublox.c102_rover_refuted",
    "Ublox.c102_poll_refuted"
   ],
   "note": "False of the code: the value field is always four bytes, so the message is a list of items exactly for keys with four-byte values (proved as an equivalence over all keys, values and sizes). With one- and two-byte keys two or three bytes belonging to no item follow; this is the case for every message of disable_nmea, set_nav_rate, set_dynamic_mode (new protocol) and config_rover. get_configuration asks for the key and twice for key 0. Proved: right item for four-byte keys; the first item is right for narrow keys."
  },
  {
   "property": "C103",
   "status": "partial",
   "theorems": [
    "Ublox.c103_port_partial",
    "Ublox.c103_format_refuted",
    "Ublox.c103_model_old_partial",
    "Ublox.c103_model_new_refuted",
    "Ublox.c103_survey_partial",
    "Ublox.c103_survey_refuted"
   ],
   "note": "False of the code: the character format goes to `flags` instead of `mode`, so the receiver is asked for 5 data bits with even parity; the model is airborne 4 g on the old and 1 g on the new protocol; the survey-in limit is 0.3 mm, not 3 cm, and not what config_base has just configured. Proved: everything else about those messages."
  },
  {
   "property": "C104",
   "status": "partial",
   "theorems": [
    "Ublox.Life.c104_running",
    "Ublox.Life.c104_calls",
    "Ublox.Life.c104_partial",
    "Ublox.Life.c104_refuted",
    "Ublox.Life.c104_last_window_refuted",
    "Ublox.Life.c104_failed_construction_refuted",
    "Ublox.Life.c104_links_first",
    "Ublox.Life.c104_rover_link",
    "Ublox.Life.safe_iff"
   ],
   "note": "False of the code: the port outlives the device, the listener, the logger and (base) the UDP link, so data arriving while main returns call destroyed objects; after a failed construction the port keeps the pointer to the device. Proved: all interleavings are safe up to the end of the waiting loop, and to the end if the receiver is silent from then on; closing the links first, in the order the role needs, makes all interleavings safe."
  },
  {
   "property": "C105",
   "status": "partial",
   "theorems": [
    "Ublox.Print.c105_pvt_partial",
    "Ublox.Print.c105_fraction_refuted",
    "Ublox.Print.c105_negative_refuted",
    "Ublox.Print.c105_rawx_partial",
    "Ublox.Print.c105_rawx_refuted",
    "Ublox.Print.c105_svin_partial",
    "Ublox.Print.c105_svin_refuted"
   ],
   "note": "False of the code in four places: the milliseconds are printed without leading zeros (right exactly for 0 or at least 100 ms), negative fractions are printed with a sign after the point, more than 30 measurements are read outside the array (128 and more: nothing is printed), negative survey-in coordinates are 2^32 cm off. Everything else is proved for all payloads. Streams: C123; the characters written: C130."
  },
  {
   "property": "C106",
   "status": "partial",
   "theorems": [
    "Ublox.Msm.c106_order_partial",
    "Ublox.Msm.c106_refuted",
    "Ublox.Msm.c106_outside_refuted"
   ],
   "note": "False of the code for every shape: msm.h:252 multiplies the header length by the size of the cell mask (24 + 169*nsat*nsig) instead of adding it. Proved: order, widths, counts and relative offsets are the documented ones; no block of any message is read at its documented place; from 49 satellite-signal pairs on all are read beyond the longest possible frame."
  },
  {
   "property": "C107",
   "status": "partial",
   "theorems": [
    "Ublox.Life.c107_constructing_partial",
    "Ublox.Life.c107_refuted",
    "Ublox.Life.c107_rover_refuted",
    "Ublox.Life.c107_others_safe",
    "Ublox.Life.c107_down"
   ],
   "note": "False of the code: the serial port is a local variable of the constructor and is closed when it returns. Proved: until then all is connected and safe; afterwards nothing from the receiver reaches the device in any role, and the first correction a rover receives is written through the destroyed port; the other roles use no destroyed object in any interleaving."
  },
  {
   "property": "C108",
   "status": "partial",
   "theorems": [
    "Ublox.Print.c108_glonass",
    "Ublox.Print.c108_eph_partial",
    "Ublox.Print.c108_tof_refuted",
    "Ublox.Print.c108_galileo_refuted",
    "Ublox.Print.c108_totals"
   ],
   "note": "False of the code in two places: for GPS and Galileo the reference date is printed again as date of the frame, and read_log calls every satellite a GPS one. Proved for all ephemerides and times: everything GLONASS, and the rest of the GPS and Galileo announcements; different totals are printed differently."
  },
  {
   "property": "C109",
   "status": "partial",
   "theorems": [
    "Ublox.c109_partial",
    "Ublox.c109_foreign_refuted",
    "Ublox.c109_early_refuted"
   ],
   "note": "False of the code: an acknowledgement of any message confirms any command, and one that arrives before wait_for_response clears the flags is lost. Proved: the answer is right for all schedules in which no other message is acknowledged during the wait and the command is not acknowledged before it."
  },
  {
   "property": "C11",
   "status": "proved",
   "theorems": [
    "Ublox.c11_subscribe",
    "Ublox.c11_dispatch"
   ],
   "note": ""
  },
  {
   "property": "C110",
   "status": "partial",
   "theorems": [
    "Ublox.c110_flags_partial",
    "Ublox.c110_states_partial",
    "Ublox.c110_txbuf_refuted",
    "Ublox.c110_fixed_refuted"
   ],
   "note": "False of the code: the MON-TXBUF error constants select other bits than documented and the fixed-position mode constant of CFG-TMODE3 is the reserved value 3 (documented: 2). Proved for all other constants and all values."
  },
  {
   "property": "C111",
   "status": "partial",
   "theorems": [
    "Ublox.c111_keep_partial",
    "Ublox.c111_tail_refuted",
    "Ublox.c111_wide_refuted",
    "Ublox.c111_switch_partial",
    "Ublox.c111_switch_refuted"
   ],
   "note": "False of the code: in the default byte order every read goes one byte too far (out of bounds at the end of the array) and fields of more than 24 bits shift by 32 or more; switched fields that touch five bytes lose their first bits. Proved for all other fields and all contents."
  },
  {
   "property": "C112",
   "status": "proved",
   "theorems": [
    "Ublox.Dev.c112"
   ],
   "note": ""
  },
  {
   "property": "C113",
   "status": "proved",
   "theorems": [
    "Ublox.Dev.c113"
   ],
   "note": "The exception of the statement, subframe 3 first, is C48 (refuted there)."
  },
  {
   "property": "C114",
   "status": "partial",
   "theorems": [
    "Ublox.Proc.c114_refuted",
    "Ublox.Proc.c114_defined_refuted",
    "Ublox.Proc.c114_partial",
    "Ublox.Proc.c114_defined_partial"
   ],
   "note": "Refuted: the Galileo page store and the rovers' debug parser are static; a device reports an ephemeris composed of pages another device heard, even one already destroyed, and two rovers overrun the debug parser together. Proved: with Galileo messages heard by at most one device, every device has the effects it has alone; and is defined alone if defined in company, when no other device has RTK data."
  },
  {
   "property": "C115",
   "status": "partial",
   "theorems": [
    "Ublox.Dev.c115_refuted",
    "Ublox.Dev.c115_partial"
   ],
   "note": "Refuted: config_base in the middle of an RTCM message (which also a device without a role parses) makes the driver put together a UBX frame, or forward an RTCM message, from separate pieces of the stream. Proved for all histories in which config_base is not called inside an RTCM message."
  },
  {
   "property": "C116",
   "status": "partial",
   "theorems": [
    "Ublox.Ros.c116_refuted",
    "Ublox.Ros.c116_convert_partial",
    "Ublox.Ros.c116_ros_partial"
   ],
   "note": "Refuted: a time that is not a number, does not fit an int, or a week after 3550 is undefined behaviour (float to int conversion, int overflow). Proved: the exact set of messages that are handled."
  },
  {
   "property": "C117",
   "status": "proved",
   "theorems": [
    "Ublox.Dev.c117"
   ],
   "note": "For satellite numbers other than 0 and dates before 2048; undefined results that the code does not use are ignored (mode lenient, see C59 and C61 for them)."
  },
  {
   "property": "C118",
   "status": "proved",
   "theorems": [
    "Ublox.Dev.c118"
   ],
   "note": "The times of the GPS ephemerides are after 1970 and differ by less than half a day (by at most 14190 s if the transmitted time of day is beyond 24 h, which the fields allow)."
  },
  {
   "property": "C119",
   "status": "proved",
   "theorems": [
    "Ublox.Ubx.c119_receiving",
    "Ublox.Ubx.c119_sending"
   ],
   "note": "Calls and bytes are taken one after the other (a call inside a callback or between two bytes); two threads inside the object at once are a data race in C++ and outside this statement. The sending half assumes that no MON-VER message is received in between: the protocol version it reports decides which commands some calls write, and it can be malformed (C16)."
  },
  {
   "property": "C12",
   "status": "proved",
   "theorems": [
    "Ublox.c12_counters",
    "Ublox.c12_true_results"
   ],
   "note": ""
  },
  {
   "property": "C120",
   "status": "proved",
   "theorems": [
    "Ublox.Dev.c120_lossy_link"
   ],
   "note": "The rover's debugging parser is between messages when the first datagram arrives (as it is after construction and after every whole datagram); datagrams are handed over whole, as UDP does."
  },
  {
   "property": "C121",
   "status": "proved",
   "theorems": [
    "Ublox.Ubx.c121_ubx",
    "Ublox.Rtcm.c121_rtcm"
   ],
   "note": "UBX: unless a header announcing length 0 was received, after which nothing is ever delivered (C07); MON-VER text and RTCM lengths above 1018 may be undefined behaviour (C16, C24), the statements are about streams that are processed. Messages whose content contains a start sequence can keep any receiver out of step; that is a property of the protocols."
  },
  {
   "property": "C122",
   "status": "proved",
   "theorems": [
    "Ublox.Dev.c122_base",
    "Ublox.Dev.c122_not_base"
   ],
   "note": "Unless the bytes contain a UBX header announcing length 0 (C07, C72); for streams that are processed without undefined behaviour (C70)."
  },
  {
   "property": "C123",
   "status": "partial",
   "theorems": [
    "Ublox.Print.c123_rover_partial",
    "Ublox.Print.c123_base_partial",
    "Ublox.Print.c123_read_log_partial",
    "Ublox.Print.c123_rover_words",
    "Ublox.Print.c123_rover_refuted"
   ],
   "note": "One report per frame, in order, nothing else and the numbers as documented: proved for every stream. False of the code: rover says RTK for every frame with any flag set, differential solution or not (c123_rover_refuted; C86). As in C105: survey positions must not be negative, at most 30 measurements; payloads have at least the documented length (C14)."
  },
  {
   "property": "C124",
   "status": "proved",
   "theorems": [
    "Ublox.ReadSerial.c124_only_received",
    "Ublox.ReadSerial.c124_only_complete",
    "Ublox.ReadSerial.c124_stays",
    "Ublox.ReadSerial.c124_gps",
    "Ublox.ReadSerial.c124_galileo",
    "Ublox.ReadSerial.c124_glonass"
   ],
   "note": "For SFRBX payloads of at least two bytes; listing theorems under the conditions of C113, C117 and C118 on the traffic under the same satellite number (C51)."
  },
  {
   "property": "C125",
   "status": "partial",
   "theorems": [
    "Ublox.Msm.c125_fine",
    "Ublox.Msm.c125_whole",
    "Ublox.Msm.c125_range_partial",
    "Ublox.Msm.c125_range_refuted"
   ],
   "note": "Proved to one part in 2^50 for every integer. False of the code for rough ranges of 0 ms (the fine part is dropped) and 255 = no range (uninitialised memory is kept and added to): c125_range_refuted. Which integer is read from the message is C88, C96 and C106; they show decode() itself never succeeds."
  },
  {
   "property": "C126",
   "status": "proved",
   "theorems": [
    "Ublox.Nav.c126_records",
    "Ublox.Dev.c126_device"
   ],
   "note": "Includes bytes arriving while the constructor runs. config_base registers the device again at each call, so that list grows with the calls (C34); the Galileo page store is a static array."
  },
  {
   "property": "C127",
   "status": "partial",
   "theorems": [
    "Ublox.Dev.c127_same_partial",
    "Ublox.Dev.c127_base_partial",
    "Ublox.Dev.c127_stack",
    "Ublox.Dev.c127_refuted"
   ],
   "note": "False for config_base of a stationary base, whose survey-in message carries stale bytes (C21, C75), and for a RXM-SFRBX message shorter than the 48 bytes the decoder reads; both refuted by witnesses. Proved for every history without config_base whose RXM-SFRBX messages are complete, and for a base at any point between messages."
  },
  {
   "property": "C128",
   "status": "partial",
   "theorems": [
    "Ublox.UTCTime.c128_glonass_partial",
    "Ublox.UTCTime.c128_difference_partial",
    "Ublox.UTCTime.c128_clock",
    "Ublox.UTCTime.c128_gps_refuted"
   ],
   "note": "False of the code for GPS and Galileo, for every date: the 18 leap seconds are added instead of subtracted, so the times are 36 s late (proved exactly). GLONASS and the clock are right, and differences between GPS and Galileo times are."
  },
  {
   "property": "C129",
   "status": "partial",
   "theorems": [
    "Ublox.UTCTime.c129_week_partial",
    "Ublox.UTCTime.c129_glonass_partial",
    "Ublox.UTCTime.c129_gps_partial",
    "Ublox.UTCTime.c129_gps_inverse",
    "Ublox.UTCTime.c129_refuted"
   ],
   "note": "False of the code: GpsWeek() is one too small in the first 36 s of every GPS week (as C128) and all divisions round towards zero before the epochs. Proved: exact from the epochs on, GpsWeek() outside those 36 s and as inverse of fromGPS for every date."
  },
  {
   "property": "C13",
   "status": "proved",
   "theorems": [
    "Ublox.c13_parsing",
    "Ublox.c13_open_frame"
   ],
   "note": ""
  },
  {
   "property": "C130",
   "status": "proved",
   "theorems": [
    "Ublox.Print.c130_fixed",
    "Ublox.Print.c130_general",
    "Ublox.Print.c130_pvt",
    "Ublox.Print.c130_svin",
    "Ublox.Print.c130_relposned",
    "Ublox.Print.c130_programs",
    "Ublox.Print.c130_read_log",
    "Ublox.Print.c130_base"
   ],
   "note": "The tolerance for computed values is half a unit of the last place plus 10^-7 for the double arithmetic before. What the reports leave to be desired is C105, C123."
  },
  {
   "property": "C131",
   "status": "partial",
   "theorems": [
    "Ublox.Print.c131_partial",
    "Ublox.Print.c131_refuted"
   ],
   "note": "False of the code: the operator has no return statement, so every use is undefined behaviour. Proved for a compiler for which that is harmless. The lines tow, anti_spoof and age_of_data_offset always show 0: nothing assigns these members."
  },
  {
   "property": "C132",
   "status": "partial",
   "theorems": [
    "Ublox.Dev.c132_safe",
    "Ublox.Dev.c132_intact",
    "Ublox.Dev.c132_one_link",
    "Ublox.Dev.c132_first_base_partial",
    "Ublox.Dev.c132_progress",
    "Ublox.Dev.c132_uninterrupted_rx",
    "Ublox.Dev.c132_uninterrupted_calls",
    "Ublox.Dev.c132_base_to_rover_refuted",
    "Ublox.Dev.c132_rover_to_base_refuted"
   ],
   "note": "False of the code for a device that is reconfigured: got_rtcm tests type_ and then reads rtk_interface_, and config_base sets type_ before rtk_interface_, so a base's message can be written to the rover's link (two schedules). True if all calls name one link (one_link), and for the first config_base. Statement-level interleavings; what push_back does to a running loop is C98, what interleaved writes do is C99, commands and the UBX parser C119."
  },
  {
   "property": "C133",
   "status": "proved",
   "theorems": [
    "Ublox.Nav.c133_stabilises",
    "Ublox.Nav.c133_new_issue",
    "Ublox.Nav.c133_zero_refuted",
    "Ublox.Dev.c133_device"
   ],
   "note": "Self-stabilisation from every state, lifted to the device and the transmitted parameters. Side finding (zero_refuted): issue number 0 counts as seen on a fresh decoder, so a stale subframe 3 is mixed into the first data set of issue 0. Subframe 3's own issue number is never looked at, so nothing is assumed about it."
  },
  {
   "property": "C134",
   "status": "proved",
   "theorems": [
    "Ublox.Nav.c134",
    "Ublox.Dev.c134_device"
   ],
   "note": "For the decoder and lifted to the device through C112. Requires that nothing else about orbit and clock arrives under the satellite's number meanwhile (another data set, Galileo: C49, C51)."
  },
  {
   "property": "C135",
   "status": "proved",
   "theorems": [
    "Ublox.Dev.c135_base",
    "Ublox.Dev.c135_total",
    "Ublox.Dev.c135_not_base"
   ],
   "note": "Text that begins with a b is excluded: after a message whose last check byte is B5 it looks like the start of a message (an example beside the theorem shows a message lost that way); NMEA sentences begin with $. Whenever processing is defined; always without MON-VER and RXM-SFRBX messages (c135_total)."
  },
  {
   "property": "C136",
   "status": "proved",
   "theorems": [
    "Ublox.Recorder.c136_prefix",
    "Ublox.Recorder.c136_complete",
    "Ublox.Recorder.c136_replay"
   ],
   "note": "The stream between program and file is modelled as a buffer emptied at arbitrary moments; after a failed write-out nothing more reaches the file (C++ standard: output in the bad state does nothing)."
  },
  {
   "property": "C137",
   "status": "partial",
   "theorems": [
    "Ublox.Recorder.c137_partial",
    "Ublox.Recorder.c137_refuted"
   ],
   "note": "False of the code: read_cb tests is_open() and not the state of the stream, so after a failed write every further call returns normally and all its bytes are lost. Proved: exactly when it throws (wrong mode or file not open, and never on a file that could be opened)."
  },
  {
   "property": "C138",
   "status": "partial",
   "theorems": [
    "Ublox.Ubx.c138_partial",
    "Ublox.Ubx.c138_narrow_partial",
    "Ublox.Ubx.c138_refuted"
   ],
   "note": "False of the code: cfgData is always eight bytes, and for items of one, two or four bytes its upper bytes are left over from earlier messages. Proved: right for eight-byte items; for narrower items the key, the low bytes (so the value, for a listener that knows the width), and exactly when the field is the value."
  },
  {
   "property": "C139",
   "status": "partial",
   "theorems": [
    "Ublox.MonVer.c139_report_partial",
    "Ublox.MonVer.c139_refuted",
    "Ublox.Ubx.c139_banner_partial",
    "Ublox.Ubx.c139_count"
   ],
   "note": "False of the code where C15 is: a label left behind a short report by an earlier message is shown instead of the version reported (c139_refuted). Proved: the text for version reports that meet the conditions of C15 (the others: C16); the count of texts for all streams."
  },
  {
   "property": "C14",
   "status": "partial",
   "theorems": [
    "Ublox.c14_partial",
    "Ublox.c14_refuted"
   ],
   "note": "False of the code: bytes beyond the payload are stale; proved: exactly what the listener sees."
  },
  {
   "property": "C140",
   "status": "proved",
   "theorems": [
    "Ublox.Rtcm.c140_stream"
   ],
   "note": "For streams on which the parser has defined behaviour (C24 gives the others); stated for every stream, so for each beginning of one, which gives the byte at which a line appears."
  },
  {
   "property": "C141",
   "status": "partial",
   "theorems": [
    "Ublox.Dev.c141_partial",
    "Ublox.Dev.c141_refuted"
   ],
   "note": "False of the code: whenever the constructor throws, it has announced a third poll that it does not make. Proved: true whenever the constructor returns."
  },
  {
   "property": "C142",
   "status": "partial",
   "theorems": [
    "Ublox.Ros.c142_partial",
    "Ublox.Ros.c142_refuted"
   ],
   "note": "False of the code for every signal the message knows: the number is one too small. Proved: numbers of different known signals differ, and other signals get 255. (An observation is published only when it has no measurements, C82; this is about the element computed for a measurement.)"
  },
  {
   "property": "C143",
   "status": "proved",
   "theorems": [
    "Ublox.Nav.c143_galileo",
    "Ublox.Nav.c143_success",
    "Ublox.Nav.c143_glonass",
    "Ublox.Nav.c143_silent"
   ],
   "note": "For messages whose processing is defined behaviour (see C61 for the others). The text of the ephemeris itself on standard output is the subject of C131."
  },
  {
   "property": "C144",
   "status": "partial",
   "theorems": [
    "Ublox.Programs.c144_link",
    "Ublox.Programs.c144_examples",
    "Ublox.Programs.c144_ros_partial",
    "Ublox.Programs.c144_ros_refuted",
    "Ublox.Programs.c144_ros_clash_refuted"
   ],
   "note": "True of the example programs, for all arguments. False of the ROS nodes: base and rover have the same default ports (local 16140, remote 16145), so with default ports a rover gets nothing, whatever hosts are given; proved with matching ports."
  },
  {
   "property": "C145",
   "status": "partial",
   "theorems": [
    "Ublox.Programs.c145_read_serial_partial",
    "Ublox.Programs.c145_ros_refuted",
    "Ublox.Programs.c145_read_log"
   ],
   "note": "True of read_serial and read_log; false of the ROS node, which ignores its parameter log_filename. What is recorded: C64, C136."
  },
  {
   "property": "C146",
   "status": "proved",
   "theorems": [
    "Ublox.Dev.c146",
    "Ublox.Dev.c146_moment",
    "Ublox.Dev.c146_link"
   ],
   "note": "Extends C30 from one buffer at a base between messages to the whole life of a base, and C112 to devices that are bases and change roles. Changes of role in the middle of a message are the subject of C115."
  },
  {
   "property": "C147",
   "status": "proved",
   "theorems": [
    "Ublox.Dev.c147_gps",
    "Ublox.Dev.c147_gps_any",
    "Ublox.Dev.c147_gal",
    "Ublox.Dev.c147_glo"
   ],
   "note": "A life without role changes is a Course too, so the concrete cases of C117 and C118 apply; for GPS a concrete base with a mixed stream is shown."
  },
  {
   "property": "C148",
   "status": "proved",
   "theorems": [
    "Ublox.Dev.c148",
    "Ublox.Dev.c148_in_order",
    "Ublox.Dev.c148_deliver"
   ],
   "note": "Joins C146 (base) and C32/C120 (rover) into one system with interleavings. The two devices are not reconfigured after the start, and config_base was called once (see C34 for more calls)."
  },
  {
   "property": "C149",
   "status": "proved",
   "theorems": [
    "Ublox.Ubx.c149_known",
    "Ublox.Ubx.c149_commands",
    "Ublox.Dev.c149_setup",
    "Ublox.Dev.c149_life",
    "Ublox.Dev.c149_roles"
   ],
   "note": "For shorter reports see C15 (bytes left by earlier messages count). start_survey_in sends left-over bytes whatever the version (C21). c149_life: until the device is made a base; c149_roles: through all roles, changed between messages."
  },
  {
   "property": "C15",
   "status": "partial",
   "theorems": [
    "Ublox.MonVer.c15_report_partial",
    "Ublox.MonVer.c15_refuted",
    "Ublox.MonVer.c15_refuted_far",
    "Ublox.c15_version_partial"
   ],
   "note": "False in general: the parser looks for the labels in 20 rows of 10 bytes whatever the length of the report, so that a label left by an earlier message behind a short report overrides the report (c15_refuted), and labels behind the seventh extension field are not seen (c15_refuted_far). Proved (c15_report_partial, over the documented layout of the report): for every history, any other fields, version numbers and module names, if both labels stand among the first seven fields and the report has at least seven fields or no label was left behind it. c15_version_partial is the same in terms of the parser's own rows, whatever the layout."
  },
  {
   "property": "C150",
   "status": "proved",
   "theorems": [
    "Ublox.Dev.c150_connect",
    "Ublox.Dev.c150_connected",
    "Ublox.Dev.c150_life",
    "Ublox.Dev.c150_base",
    "Ublox.Dev.c150_base_messages"
   ],
   "note": "The converse of C70: which data is certain to be safe. Other constellations, over-long RTCM headers and odd reports are excluded because they do lead to undefined behaviour (C16, C24, C61, C70; other constellations in ordinary builds: C153). A schedule is complete when the clock shows 1000 ms or a report arrived (c19_terminates)."
  },
  {
   "property": "C151",
   "status": "proved",
   "theorems": [
    "Ublox.Dev.c151_gps_latest",
    "Ublox.Dev.c151_galileo_latest",
    "Ublox.Dev.c151_glonass_latest",
    "Ublox.Dev.c151_gps",
    "Ublox.Dev.c151_galileo",
    "Ublox.Dev.c151_glonass"
   ],
   "note": "The soundness counterpart of C116-C118 and C147 (which say that what is transmitted is reported). Messages without all their data words (AllWords) are read beyond their end into the rest of the buffer, see C14; the issue of data of GPS subframe 3 is not compared by the code (C49); the purity of a GLONASS frame is C53; times of GLONASS are C54."
  },
  {
   "property": "C152",
   "status": "proved",
   "theorems": [
    "Ublox.Nav.c152"
   ],
   "note": "Hypotheses: the structure EarlyDays (Spec/EarlyDays.lean), met by early_runs, a mixture in which an ephemeris of each constellation is reported; early_needed shows that GPS week 3071 (November 2038) makes a GLONASS string overflow. GLONASS strings and messages of other constellations are not restricted. Without the hypotheses the claim is false: c61_witnesses_refuted. Rests on the step theorem c61_lenient_partial, of which it removes the condition on the reference time."
  },
  {
   "property": "C153",
   "status": "proved",
   "theorems": [
    "Ublox.Dev.c153_connect",
    "Ublox.Dev.c153_life",
    "Ublox.Dev.c153_base",
    "Ublox.Dev.c153_base_messages"
   ],
   "note": "C150 for receivers of all constellations, in ordinary builds (in strict ones every usable GLONASS string and every Galileo ephemeris is undefined: C61). The hypotheses are the structure HarmlessAll (Spec/HarmlessAll.lean) and are met by exMany, with messages of GPS, Galileo and GLONASS. The condition on the dates is C152."
  },
  {
   "property": "C16",
   "status": "partial",
   "theorems": [
    "Ublox.c16_partial",
    "Ublox.c16_refuted",
    "Ublox.c16_refuted_name"
   ],
   "note": "False of the code: atoi/printf over unterminated arrays; no out-of-bounds indexing otherwise."
  },
  {
   "property": "C17",
   "status": "proved",
   "theorems": [
    "Ublox.c17_answer",
    "Ublox.c17_timeout",
    "Ublox.c17_terminates"
   ],
   "note": ""
  },
  {
   "property": "C18",
   "status": "proved",
   "theorems": [
    "Ublox.c18_answer",
    "Ublox.c18_terminates"
   ],
   "note": ""
  },
  {
   "property": "C19",
   "status": "proved",
   "theorems": [
    "Ublox.Dev.c19_constructor",
    "Ublox.Dev.c19_terminates"
   ],
   "note": ""
  },
  {
   "property": "C20",
   "status": "proved",
   "theorems": [
    "Ublox.c20_only_frames"
   ],
   "note": ""
  },
  {
   "property": "C21",
   "status": "partial",
   "theorems": [
    "Ublox.c21_partial",
    "Ublox.c21_survey_partial",
    "Ublox.c21_refuted"
   ],
   "note": "False for start_survey_in, which sends stale buffer bytes; proved for every other call, and exactly what start_survey_in sends."
  },
  {
   "property": "C22",
   "status": "proved",
   "theorems": [
    "Ublox.Rtcm.c22_forwarded_was_received",
    "Ublox.Rtcm.c22_stream"
   ],
   "note": ""
  },
  {
   "property": "C23",
   "status": "proved",
   "theorems": [
    "Ublox.Rtcm.c23_frame_is_delivered"
   ],
   "note": ""
  },
  {
   "property": "C24",
   "status": "partial",
   "theorems": [
    "Ublox.Rtcm.c24_refuted",
    "Ublox.Rtcm.c24_partial"
   ],
   "note": "False of the code: any announced length of 1019..1023 overruns the buffer (proved for every idle state and content); nothing else does."
  },
  {
   "property": "C25",
   "status": "proved",
   "theorems": [
    "Ublox.Rtcm.c25_idle_again"
   ],
   "note": "Under the condition that the run stays defined (C24)."
  },
  {
   "property": "C26",
   "status": "partial",
   "theorems": [
    "Ublox.Rtcm.c26_partial",
    "Ublox.Rtcm.c26_refuted"
   ],
   "note": "False of the code: frames with a wrong CRC count too; proved exactly what new_data reports."
  },
  {
   "property": "C27",
   "status": "proved",
   "theorems": [
    "Ublox.c27_crc24",
    "Ublox.c27_toPoly_faithful"
   ],
   "note": ""
  },
  {
   "property": "C28",
   "status": "proved",
   "theorems": [
    "Ublox.c28_burst",
    "Ublox.c28_odd",
    "Ublox.c28_two",
    "Ublox.c28_example_valid"
   ],
   "note": ""
  },
  {
   "property": "C29",
   "status": "proved",
   "theorems": [
    "Ublox.Rtcm.c29_zero_length",
    "Ublox.Rtcm.c29_wrong_crc"
   ],
   "note": ""
  },
  {
   "property": "C30",
   "status": "proved",
   "theorems": [
    "Ublox.Dev.c30_any_stream",
    "Ublox.Dev.c30_lossless",
    "Ublox.Dev.c30_total",
    "Ublox.Dev.c30_link"
   ],
   "note": "Whenever the processing of the stream is defined; it is always defined for streams without MON-VER and RXM-SFRBX messages (c30_total; see C16, C61)."
  },
  {
   "property": "C31",
   "status": "proved",
   "theorems": [
    "Ublox.Dev.c31_ubx_in_progress",
    "Ublox.Dev.c31_rtcm_in_progress"
   ],
   "note": ""
  },
  {
   "property": "C32",
   "status": "proved",
   "theorems": [
    "Ublox.Dev.c32_receiver_data",
    "Ublox.Dev.c32_rtk_data",
    "Ublox.Dev.c32_unconfigured",
    "Ublox.Dev.c32_rover_stream",
    "Ublox.Dev.c32_other_calls"
   ],
   "note": "Configuration calls are atomic here; interleaved with reception: C132."
  },
  {
   "property": "C33",
   "status": "proved",
   "theorems": [
    "Ublox.Dev.c33_end_to_end",
    "Ublox.Dev.c33_rover_total"
   ],
   "note": ""
  },
  {
   "property": "C34",
   "status": "partial",
   "theorems": [
    "Ublox.Dev.c34_refuted",
    "Ublox.Dev.c34_partial"
   ],
   "note": "False of the code: each frame is written as many times as config_base was called (proved exactly)."
  },
  {
   "property": "C35",
   "status": "proved",
   "theorems": [
    "Ublox.c35_getBit",
    "Ublox.c35_getBitRt",
    "Ublox.c35_locality"
   ],
   "note": ""
  },
  {
   "property": "C36",
   "status": "proved",
   "theorems": [
    "Ublox.c36_getBitS",
    "Ublox.c36_getBitRtS",
    "Ublox.c36_twosComp_range"
   ],
   "note": ""
  },
  {
   "property": "C37",
   "status": "proved",
   "theorems": [
    "Ublox.c37_setBit",
    "Ublox.c37_setBitRt"
   ],
   "note": ""
  },
  {
   "property": "C38",
   "status": "proved",
   "theorems": [
    "Ublox.c38_roundtrip",
    "Ublox.c38_roundtripRt"
   ],
   "note": ""
  },
  {
   "property": "C39",
   "status": "proved",
   "theorems": [
    "Ublox.c39_getBitGlo"
   ],
   "note": ""
  },
  {
   "property": "C40",
   "status": "partial",
   "theorems": [
    "Ublox.c40_switch_partial",
    "Ublox.c40_update_partial",
    "Ublox.c40_keep_partial",
    "Ublox.c40_refuted"
   ],
   "note": "False of the code in the default (kept) byte order: assignment stores the most significant bit first, reading takes the least significant first. Proved, with compound assignments and the untouched bits, for the switched order and fields within four bytes; for the default order c40_keep_partial says exactly which fields work (2*(first%8)+size=8); reading alone is C111."
  },
  {
   "property": "C41",
   "status": "proved",
   "theorems": [
    "Ublox.UTCTime.c41_exact",
    "Ublox.UTCTime.c41_inverse",
    "Ublox.UTCTime.c41_repr"
   ],
   "note": ""
  },
  {
   "property": "C42",
   "status": "partial",
   "theorems": [
    "Ublox.UTCTime.c42_normal_partial",
    "Ublox.UTCTime.c42_ctor_partial",
    "Ublox.UTCTime.c42_refuted"
   ],
   "note": "False at the boundary: a sum whose nanoseconds are exactly 10^9 is left unnormalised (wrapNsec tests > instead of >=); proved for all other sums and for every difference."
  },
  {
   "property": "C43",
   "status": "proved",
   "theorems": [
    "Ublox.UTCTime.c43_order",
    "Ublox.UTCTime.c43_strict_total"
   ],
   "note": ""
  },
  {
   "property": "C44",
   "status": "partial",
   "theorems": [
    "Ublox.UTCTime.c44_fromGPS_partial",
    "Ublox.UTCTime.c44_refuted",
    "Ublox.UTCTime.c44_overflow"
   ],
   "note": "False of the code for milliseconds (each becomes a whole second) and from week 3551 on (int overflow); proved exact for whole seconds up to week 3549."
  },
  {
   "property": "C45",
   "status": "partial",
   "theorems": [
    "Ublox.UTCTime.c45_fromGlonass_partial",
    "Ublox.UTCTime.c45_refuted"
   ],
   "note": "As C44: exact for whole seconds only."
  },
  {
   "property": "C46",
   "status": "partial",
   "theorems": [
    "Ublox.UTCTime.c46_tod_partial",
    "Ublox.UTCTime.c46_refuted"
   ],
   "note": "The result has the right time of day, on the reference's Moscow day, but need not be the closest such time to the reference; both proved."
  },
  {
   "property": "C47",
   "status": "partial",
   "theorems": [
    "Ublox.UTCTime.c47_int_partial",
    "Ublox.UTCTime.c47_refuted"
   ],
   "note": "t + int and t - int drop the nanoseconds, the compound forms keep them; proved equal exactly when there are none."
  },
  {
   "property": "C48",
   "status": "partial",
   "theorems": [
    "Ublox.Nav.c48_reported_partial",
    "Ublox.Nav.c48_exact_partial",
    "Ublox.Nav.c49_consistent_partial",
    "Ublox.Nav.c48_order_refuted"
   ],
   "note": "Proved for every content, interleaving and the four orders in which subframe 3 is not first; false if subframe 3 comes first (stale issue of data). The values are symbolic products raw*scale; their IEEE values are C95."
  },
  {
   "property": "C49",
   "status": "partial",
   "theorems": [
    "Ublox.Nav.c49_consistent_partial",
    "Ublox.Nav.c49_issue3_refuted"
   ],
   "note": "False of the code for subframe 3: its issue of data is overwritten before it is compared. Proved: all three subframes arrived since the last callback, 1 and 2 agree."
  },
  {
   "property": "C50",
   "status": "proved",
   "theorems": [
    "Ublox.Nav.c50_data_bits_only"
   ],
   "note": ""
  },
  {
   "property": "C51",
   "status": "partial",
   "theorems": [
    "Ublox.Nav.c51_isolated_partial",
    "Ublox.Nav.c51_glonass_isolated",
    "Ublox.Nav.c51_shared_refuted"
   ],
   "note": "Non-interference between satellite numbers and between GLONASS satellites; false between GPS and Galileo satellites of the same number, which share one table entry."
  },
  {
   "property": "C52",
   "status": "proved",
   "theorems": [
    "Ublox.Nav.c52_rule",
    "Ublox.Nav.c52_accepts_valid",
    "Ublox.Nav.c52_single_flip",
    "Ublox.Nav.c52_double_flip",
    "Ublox.Nav.c52_padding",
    "Ublox.Nav.c52_rejected_ignored"
   ],
   "note": ""
  },
  {
   "property": "C53",
   "status": "proved",
   "theorems": [
    "Ublox.Nav.c53_single_frame",
    "Ublox.Nav.c53_frame_exists"
   ],
   "note": "Holds in both modes; in strict C++ semantics every string 1-4 is already undefined (C61), so it is the lenient mode (builds in which a missing return is harmless) that matters."
  },
  {
   "property": "C54",
   "status": "proved",
   "theorems": [
    "Ublox.Nav.c54_times_closest",
    "Ublox.Nav.c55_transmitted"
   ],
   "note": "As C53. For reference times not before 1970, normalised. The fields allow times of day beyond 24 h (up to 115410 s); for those the reference times must differ by at most 14190 s."
  },
  {
   "property": "C55",
   "status": "proved",
   "theorems": [
    "Ublox.Nav.c55_exact",
    "Ublox.Nav.c55_transmitted",
    "Ublox.Nav.c55_total"
   ],
   "note": "As C53. Values are exact symbolic products raw*scale; IEEE rounding is C95, the way from the receiver to the callback C118."
  },
  {
   "property": "C56",
   "status": "proved",
   "theorems": [
    "Ublox.Nav.c56_ignored"
   ],
   "note": ""
  },
  {
   "property": "C57",
   "status": "proved",
   "theorems": [
    "Ublox.Nav.c57_rejected",
    "Ublox.Nav.c57_stored",
    "Ublox.Nav.c57_burst",
    "Ublox.Nav.c57_odd",
    "Ublox.Nav.c57_two",
    "Ublox.Nav.good_pages"
   ],
   "note": "Rejected pages change nothing (for every later history); what is stored is exactly the accepted pages; every burst of up to 24 bits, odd number of flips, or two flips in a page is rejected."
  },
  {
   "property": "C58",
   "status": "proved",
   "theorems": [
    "Ublox.Nav.c58_consistent",
    "Ublox.Nav.c58_reported",
    "Ublox.Nav.c58_transmitted",
    "Ublox.Nav.sentPage_exists",
    "Ublox.Nav.c58_toe_closest"
   ],
   "note": "Values are exact symbolic products raw*scale; IEEE rounding is C95, the way from the receiver to the callback C117. As C53: in strict C++ semantics the report itself is undefined (C61), so the lenient mode matters."
  },
  {
   "property": "C59",
   "status": "partial",
   "theorems": [
    "Ublox.Nav.c59_memory_partial",
    "Ublox.Nav.c59_satellite0_refuted"
   ],
   "note": "False of the code for satellite number 0; proved: no other out-of-bounds access."
  },
  {
   "property": "C60",
   "status": "partial",
   "theorems": [
    "Ublox.Nav.c60_gps_defined",
    "Ublox.Nav.c60_memory_safe",
    "Ublox.Nav.c60_gps_defined_lenient",
    "Ublox.Nav.c60_gps_only_partial",
    "Ublox.Nav.c60_mixed_refuted"
   ],
   "note": "Proved under C++ semantics for every history without earlier undefined behaviour; false in builds that survive the missing return of operator<< if a Galileo satellite has the same number."
  },
  {
   "property": "C61",
   "status": "partial",
   "theorems": [
    "Ublox.Nav.c61_causes_partial",
    "Ublox.Nav.c61_lenient_partial",
    "Ublox.Nav.c61_other_refuted",
    "Ublox.Nav.c61_glonass_refuted",
    "Ublox.Nav.c61_witnesses_refuted"
   ],
   "note": "False of the code (missing return statements, overflow); proved: the complete list of causes, in both modes. For ordinary builds and data until the end of 2037: C152, C153."
  },
  {
   "property": "C62",
   "status": "partial",
   "theorems": [
    "Ublox.Nav.c62_galileo",
    "Ublox.Nav.c62_glonass_partial",
    "Ublox.Nav.c62_gps_refuted",
    "Ublox.Nav.c62_witnesses_refuted"
   ],
   "note": "True for Galileo; false for GLONASS strings failing their check and for GPS; proved exactly when it returns true."
  },
  {
   "property": "C63",
   "status": "partial",
   "theorems": [
    "Ublox.Nmea.c63_stores_in_bounds",
    "Ublox.Nmea.c63_true_iff_partial",
    "Ublox.Nmea.c63_refuted",
    "Ublox.Nmea.c63_parsing",
    "Ublox.Nmea.c63_sentence_end"
   ],
   "note": "Memory part proved; framing false as stated (any CR LF returns true), exact for callers that ask parsing_message() first."
  },
  {
   "property": "C64",
   "status": "partial",
   "theorems": [
    "Ublox.Logger.c64_record",
    "Ublox.Logger.c64_replay_partial",
    "Ublox.Logger.c64_same_callbacks_partial",
    "Ublox.Logger.c64_long_logs",
    "Ublox.Logger.c64_refuted",
    "Ublox.Logger.c64_modes"
   ],
   "note": "Proved for logs below 2 GiB; the int index overflows above."
  },
  {
   "property": "C65",
   "status": "proved",
   "theorems": [
    "Ublox.c65_sys",
    "Ublox.c65_unambiguous",
    "Ublox.c65_sig",
    "Ublox.c65_injective",
    "Ublox.c65_type",
    "Ublox.c65_names"
   ],
   "note": ""
  },
  {
   "property": "C66",
   "status": "partial",
   "theorems": [
    "Ublox.Ros.c66_ecef_partial",
    "Ublox.Ros.c66_velocity_refuted",
    "Ublox.Ros.c66_count_refuted",
    "Ublox.Ros.c66_refuted"
   ],
   "note": "False of the code: published at once, with only one velocity component; proved what is published and when, for all histories."
  },
  {
   "property": "C67",
   "status": "partial",
   "theorems": [
    "Ublox.Ros.c67_freq_partial",
    "Ublox.Ros.c67_refuted"
   ],
   "note": "False of the code: right exactly for GPS L2 CM and Galileo E1 B (table off by one)."
  },
  {
   "property": "C68",
   "status": "partial",
   "theorems": [
    "Ublox.Msm.c68_header_partial",
    "Ublox.Msm.c68_masks_ignored",
    "Ublox.Msm.c68_refuted",
    "Ublox.Msm.c68_again"
   ],
   "note": "Proved of the object's own bytes; false of a message: the decoder reads the object itself, after overwriting the masks with the time; counters never zeroed."
  },
  {
   "property": "C69",
   "status": "proved",
   "theorems": [
    "Ublox.Nav.c69_constants",
    "Ublox.Nav.c69_msm",
    "Ublox.Nav.c69_fields"
   ],
   "note": ""
  },
  {
   "property": "C70",
   "status": "partial",
   "theorems": [
    "Ublox.Dev.c70_receiver_partial",
    "Ublox.Dev.c70_base_partial",
    "Ublox.Dev.c70_rtk_partial",
    "Ublox.Dev.c70_calls",
    "Ublox.Dev.c70_rtcm_refuted",
    "Ublox.Dev.c70_refuted"
   ],
   "note": "False of the code; proved: the complete list of causes (MON-VER text C16, RXM-SFRBX C61, RTCM frames over 1018 bytes C24)."
  },
  {
   "property": "C71",
   "status": "partial",
   "theorems": [
    "Ublox.UTCTime.c71_ieee_partial",
    "Ublox.UTCTime.c71_ieee_refuted"
   ],
   "note": "In IEEE double arithmetic, proved for every double from 0 up to 146 years (to 256 ns; to the nanosecond up to 104 days); false for negative numbers of seconds (converted to an unsigned type). Exact nanoseconds beyond 104 days are not representable in the product."
  },
  {
   "property": "C72",
   "status": "partial",
   "theorems": [
    "Ublox.Dev.c72_refuted",
    "Ublox.Dev.c72_partial"
   ],
   "note": "False of the code: a zero-length UBX header silences the device for ever; otherwise between messages within 3078 bytes. What is received meanwhile: C122."
  },
  {
   "property": "C73",
   "status": "proved",
   "theorems": [
    "Ublox.Dev.c73_not_base"
   ],
   "note": ""
  },
  {
   "property": "C74",
   "status": "partial",
   "theorems": [
    "Ublox.Dev.c74_base_to_rover",
    "Ublox.Dev.c74_refuted",
    "Ublox.Dev.c74_partial"
   ],
   "note": "Base to rover holds; a former rover link keeps being forwarded to the receiver."
  },
  {
   "property": "C75",
   "status": "partial",
   "theorems": [
    "Ublox.Dev.c75_rover",
    "Ublox.Dev.c75_moving_base",
    "Ublox.Dev.c75_stationary_base_partial",
    "Ublox.Dev.c75_refuted"
   ],
   "note": "Exact for rover and moving base; the survey-in message of a stationary base carries stale bytes."
  },
  {
   "property": "C76",
   "status": "partial",
   "theorems": [
    "Ublox.Nmea.c76_sentences_partial",
    "Ublox.Nmea.c76_max_length",
    "Ublox.Nmea.c76_refuted",
    "Ublox.Nmea.c76_line_survived"
   ],
   "note": "False after unterminated noise and at the full 82 characters (reads beyond the buffer); proved otherwise."
  },
  {
   "property": "C77",
   "status": "proved",
   "theorems": [
    "Ublox.SerialIf.c77_fanout"
   ],
   "note": ""
  },
  {
   "property": "C78",
   "status": "partial",
   "theorems": [
    "Ublox.c78_nav_pvt",
    "Ublox.c78_nav_relposned",
    "Ublox.c78_nav_posecef",
    "Ublox.c78_nav_velecef",
    "Ublox.c78_rxm_sfrbx",
    "Ublox.c78_nav_svin_partial",
    "Ublox.c78_svin_refuted",
    "Ublox.c78_rxm_rawx_partial",
    "Ublox.c78_rawx_refuted",
    "Ublox.c78_ack",
    "Ublox.c78_mon_txbuf",
    "Ublox.c78_mon_comms_partial",
    "Ublox.c78_mon_ver_refuted"
   ],
   "note": "False for negative NAV-SVIN coordinates, for RXM-RAWX beyond 30 measurements or 127 in the count, for every MON-VER extension but the first (the array dimensions are swapped) and for MON-COMMS ports beyond the fifth; proved for everything else."
  },
  {
   "property": "C79",
   "status": "proved",
   "theorems": [
    "Ublox.Ros.c79_pvt"
   ],
   "note": ""
  },
  {
   "property": "C80",
   "status": "partial",
   "theorems": [
    "Ublox.Ros.c80_relpos_partial",
    "Ublox.Ros.c80_refuted"
   ],
   "note": "All but the heading accuracy, an integer number of radians."
  },
  {
   "property": "C81",
   "status": "partial",
   "theorems": [
    "Ublox.Ros.c81_survey_partial",
    "Ublox.Ros.c81_refuted",
    "Ublox.Ros.c81_sign_refuted"
   ],
   "note": "Wrong scale of the high-precision part and wrong sign of negative coordinates."
  },
  {
   "property": "C82",
   "status": "partial",
   "theorems": [
    "Ublox.Ros.c82_refuted",
    "Ublox.Ros.c82_fields_partial"
   ],
   "note": "False for every message with measurements: writes into an empty vector."
  },
  {
   "property": "C83",
   "status": "partial",
   "theorems": [
    "Ublox.Ros.c83_convert_partial",
    "Ublox.Ros.c83_refuted"
   ],
   "note": "Proved up to 30 measurements; beyond, reads outside the array."
  },
  {
   "property": "C84",
   "status": "partial",
   "theorems": [
    "Ublox.Ros.c84_lli_partial",
    "Ublox.Ros.c84_convert_partial",
    "Ublox.Ros.c84_refuted"
   ],
   "note": "Every phase measurement is flagged (operator precedence)."
  },
  {
   "property": "C85",
   "status": "partial",
   "theorems": [
    "Ublox.Ros.c85_subscriptions_partial",
    "Ublox.Ros.c85_refuted"
   ],
   "note": "False for every execution: the node never registers itself."
  },
  {
   "property": "C86",
   "status": "partial",
   "theorems": [
    "Ublox.Ros.c86_status_partial",
    "Ublox.Ros.c86_refuted"
   ],
   "note": "&& instead of &: never says Fixed, says RTK and Floating for any non-zero word. The characters written: C130."
  },
  {
   "property": "C87",
   "status": "proved",
   "theorems": [
    "Ublox.Dev.c87_only_asked"
   ],
   "note": ""
  },
  {
   "property": "C88",
   "status": "partial",
   "theorems": [
    "Ublox.Msm.c88_runs_off_end_partial",
    "Ublox.Msm.c88_never_succeeds"
   ],
   "note": "-1 exactly for more than 64 cells and all reads in bounds; otherwise the function ends without a return, so success is never reported."
  },
  {
   "property": "C89",
   "status": "partial",
   "theorems": [
    "Ublox.Nmea.c89_refuted"
   ],
   "note": "False of the code: the flag is never set. Proved for every history: the first call returns the uninitialised member and every later call false, whatever was received."
  },
  {
   "property": "C90",
   "status": "proved",
   "theorems": [
    "Ublox.Ros.c90_published"
   ],
   "note": "Reference times set by the user are assumed normalised and between 1970 and 2106. The members tow, anti_spoof and age_of_data_offset have no source and are always 0; the node never registers these callbacks (cf. C85), so the theorem is about the messages the callbacks build."
  },
  {
   "property": "C91",
   "status": "proved",
   "theorems": [
    "Ublox.UTCTime.c91_accurate",
    "Ublox.UTCTime.c91_monotone"
   ],
   "note": "IEEE binary64 round-to-nearest-even modelled bit-exactly (Model/Double.lean)."
  },
  {
   "property": "C92",
   "status": "partial",
   "theorems": [
    "Ublox.Ros.c92_convert_partial",
    "Ublox.Ros.c92_ros_partial",
    "Ublox.Ros.c92_ros_exact",
    "Ublox.Ros.c92_refuted"
   ],
   "note": "False of the code: convertUBX passes seconds where milliseconds are expected, so its stamps are right exactly in the first 1000 s of a week; the ROS node is right for whole seconds, each further millisecond counts as a second. Weeks from 3550 on overflow (C44)."
  },
  {
   "property": "C93",
   "status": "proved",
   "theorems": [
    "Ublox.Ros.c93_pvt",
    "Ublox.Ros.c93_relpos",
    "Ublox.Ros.c93_survey",
    "Ublox.Ros.c93_survey_hp",
    "Ublox.Ros.c93_lossless"
   ],
   "note": "c93_survey covers the non-negative survey coordinates the property names (negative ones are wrong for another reason, C81); accHeading is an integer member (C80)."
  },
  {
   "property": "C94",
   "status": "partial",
   "theorems": [
    "Ublox.Logger.c94_refuted",
    "Ublox.Logger.c94_throws"
   ],
   "note": "False of the code: the constructor polls the version before play() can be called and a log delivers bytes only inside play(), so the program always throws after two one-second polls. Replay to a device that exists already is C64."
  },
  {
   "property": "C95",
   "status": "proved",
   "theorems": [
    "Ublox.Nav.c95_faithful",
    "Ublox.Nav.c95_exact",
    "Ublox.Nav.c95_constants"
   ],
   "note": "IEEE binary64, products rounded one by one from left to right. c95_constants: the constants P2_32 and smaller are written with too few digits to be exact powers of two."
  },
  {
   "property": "C96",
   "status": "partial",
   "theorems": [
    "Ublox.Msm.c96_fine_partial",
    "Ublox.Msm.c96_refuted"
   ],
   "note": "False of the code: the fields are read unsigned, so every negative number is stored as a large positive one and the no-data marker is never recognised; right exactly for non-negative values. Scaling and storing are not modelled (the function ends without a return anyway, C88)."
  },
  {
   "property": "C97",
   "status": "proved",
   "theorems": [
    "Ublox.UTCTime.c97_calendar",
    "Ublox.UTCTime.c97_range",
    "Ublox.UTCTime.c97_distinct"
   ],
   "note": "gmtime is the C library's: a parameter that is assumed to meet POSIX; exists_gmtime shows that the assumption can be met and stamp_unique that a second has one date."
  },
  {
   "property": "C98",
   "status": "partial",
   "theorems": [
    "Ublox.Conc.c98_deliver_partial",
    "Ublox.Conc.c98_progress_partial",
    "Ublox.Conc.c98_register_first",
    "Ublox.Conc.c98_refuted",
    "Ublox.Conc.c98_schedule_refuted",
    "Ublox.Conc.c98_logger_refuted"
   ],
   "note": "False of the code: nothing is locked, so a registration that makes the vector grow while a delivery is in progress leaves the receive thread with an iterator into freed memory (read_serial does this with its logger). Proved for every schedule in which no registration has to grow the vector during a delivery, in particular if everybody registers before the first data."
  },
  {
   "property": "C99",
   "status": "partial",
   "theorems": [
    "Ublox.Port.c99_writes",
    "Ublox.Port.c99_whole_partial",
    "Ublox.Port.c99_alone",
    "Ublox.Port.c99_refuted",
    "Ublox.Port.c99_lost_refuted"
   ],
   "note": "False of the code: send_message makes nine separate writes and nothing keeps the link's thread out between them (refuted for every command and every RTCM buffer). Proved: the writes are exactly those, and in every schedule in which corrections come in between commands only, the stream is whole."
  }
 ]
}