{
 "claims": [
  {
   "property": "C01",
   "status": "proved",
   "theorems": [
    "Argo.Actisense.C01_Write",
    "Argo.Actisense.C01_commands",
    "Argo.Actisense.C01_injective",
    "Argo.Actisense.C08_Send"
   ],
   "note": ""
  },
  {
   "property": "C02",
   "status": "partial",
   "theorems": [
    "Argo.Actisense.C02_roundtrip_iff",
    "Argo.Actisense.C02_partial",
    "Argo.Actisense.C02_false",
    "Argo.Actisense.C02_read_partial",
    "Argo.Actisense.C02_read_false"
   ],
   "note": "False as an unconditional claim: length and checksum bytes are not escaped. Exact iff proved."
  },
  {
   "property": "C03",
   "status": "proved",
   "theorems": [
    "Argo.Actisense.C03_all_frames"
   ],
   "note": ""
  },
  {
   "property": "C04",
   "status": "proved",
   "theorems": [
    "Argo.Actisense.C04_resync",
    "Argo.Actisense.C04_error_resets"
   ],
   "note": ""
  },
  {
   "property": "C05",
   "status": "proved",
   "theorems": [
    "Argo.Actisense.C05_checksum",
    "Argo.Actisense.C05_history",
    "Argo.Actisense.C05_single_byte",
    "Argo.Actisense.C05_wire_false"
   ],
   "note": "Altered byte of the unescaped content; altering a byte on the wire can defeat the checksum (C05_wire_false)."
  },
  {
   "property": "C06",
   "status": "proved",
   "theorems": [
    "Argo.Actisense.C06_contents",
    "Argo.Actisense.C06_accepts"
   ],
   "note": ""
  },
  {
   "property": "C07",
   "status": "partial",
   "theorems": [
    "Argo.Actisense.C07_false",
    "Argo.Actisense.C07_partial",
    "Argo.Actisense.C07_overrun"
   ],
   "note": "False; exact crash condition proved."
  },
  {
   "property": "C08",
   "status": "proved",
   "theorems": [
    "Argo.Actisense.C08_Send"
   ],
   "note": ""
  },
  {
   "property": "C09",
   "status": "proved",
   "theorems": [
    "Argo.Actisense.C09_envelope",
    "Argo.Actisense.C09_silent",
    "Argo.Actisense.C09_result",
    "Argo.Actisense.C09_encoding",
    "Argo.Actisense.C09_understood",
    "Argo.Actisense.C09_pgn_roundtrip"
   ],
   "note": ""
  },
  {
   "property": "C10",
   "status": "proved",
   "theorems": [
    "Argo.Actisense.C10_bytes",
    "Argo.Actisense.C10_open"
   ],
   "note": ""
  },
  {
   "property": "C11",
   "status": "partial",
   "theorems": [
    "Argo.Actisense.C11_false",
    "Argo.Actisense.C11_partial",
    "Argo.Actisense.C11_exact"
   ],
   "note": "False inside a frame; harmless at frame boundaries; the exact effect in every sequence of bytes, errors and empty reads is C11_exact."
  },
  {
   "property": "C12",
   "status": "partial",
   "theorems": [
    "Argo.Actisense.C12_false",
    "Argo.Actisense.C12_partial",
    "Argo.Actisense.C06_contents"
   ],
   "note": "False when the declared length exceeds the frame."
  },
  {
   "property": "C13",
   "status": "proved",
   "theorems": [
    "Argo.Canusb.C13_registry"
   ],
   "note": ""
  },
  {
   "property": "C14",
   "status": "proved",
   "theorems": [
    "Argo.Canusb.C14_identifier",
    "Argo.Canusb.C15_accepts"
   ],
   "note": ""
  },
  {
   "property": "C15",
   "status": "proved",
   "theorems": [
    "Argo.Canusb.C15_accepts"
   ],
   "note": ""
  },
  {
   "property": "C16",
   "status": "partial",
   "theorems": [
    "Argo.Canusb.C16_false",
    "Argo.Canusb.C16_fatal",
    "Argo.Canusb.C16_stream_partial",
    "Argo.Canusb.C16_receive_partial",
    "Argo.Canusb.C16_partial",
    "Argo.Canusb.C16_long_enough"
   ],
   "note": "False: a line holding only the identifier panics. Exact crash condition proved, for one line (C16_partial, C16_receive_partial) and for any input of any number of adapters (C16_stream_partial: only at such a line; C16_fatal: at every such line)."
  },
  {
   "property": "C17",
   "status": "proved",
   "theorems": [
    "Argo.Canusb.C17_roundtrip",
    "Argo.Canusb.C19_sends"
   ],
   "note": ""
  },
  {
   "property": "C18",
   "status": "partial",
   "theorems": [
    "Argo.Canusb.C18_false",
    "Argo.Canusb.C18_partial"
   ],
   "note": "False: bit 17 of the PGN is dropped. Proved: PGN modulo 2^17 is preserved."
  },
  {
   "property": "C19",
   "status": "proved",
   "theorems": [
    "Argo.Canusb.C19_sends",
    "Argo.Canusb.C19_short"
   ],
   "note": ""
  },
  {
   "property": "C20",
   "status": "partial",
   "theorems": [
    "Argo.Canusb.C20_roundtrip",
    "Argo.Canusb.C20_false_above_192",
    "Argo.Canusb.Send_fast",
    "Argo.Canusb.writeAll_prefix"
   ],
   "note": "Proved for 9..192 bytes; for 193..223 bytes proved that the payload is never delivered."
  },
  {
   "property": "C21",
   "status": "partial",
   "theorems": [
    "Argo.Canusb.C21_false",
    "Argo.Canusb.C21_partial",
    "Argo.Canusb.Send_frames"
   ],
   "note": "False for every payload over 12 bytes; proved for 9..12."
  },
  {
   "property": "C22",
   "status": "proved",
   "theorems": [
    "Argo.Canusb.C22_standard"
   ],
   "note": ""
  },
  {
   "property": "C23",
   "status": "proved",
   "theorems": [
    "Argo.Canusb.C23_isolation"
   ],
   "note": ""
  },
  {
   "property": "C24",
   "status": "partial",
   "theorems": [
    "Argo.Canusb.C24_false_group",
    "Argo.Canusb.C24_false_destination",
    "Argo.Canusb.C23_isolation"
   ],
   "note": "False for groups g, g+4 and for destinations; streams differing in PGN, source or group modulo 4 are isolated (C23_isolation)."
  },
  {
   "property": "C25",
   "status": "partial",
   "theorems": [
    "Argo.Canusb.C25_false",
    "Argo.Canusb.C25_partial"
   ],
   "note": "False: orphan continuation frames are delivered raw. Every other delivery is a complete chain."
  },
  {
   "property": "C26",
   "status": "proved",
   "theorems": [
    "Argo.Canusb.C26_memory",
    "Argo.Canusb.C26_keys"
   ],
   "note": ""
  },
  {
   "property": "C27",
   "status": "proved",
   "theorems": [
    "Argo.Canusb.C27_read",
    "Argo.Canusb.C27_error",
    "Argo.Canusb.C27_session",
    "Argo.Canusb.session_read"
   ],
   "note": ""
  },
  {
   "property": "C28",
   "status": "proved",
   "theorems": [
    "Argo.Canusb.C28_closed"
   ],
   "note": ""
  },
  {
   "property": "C29",
   "status": "proved",
   "theorems": [
    "Argo.Canusb.C29_claim"
   ],
   "note": ""
  },
  {
   "property": "C30",
   "status": "partial",
   "theorems": [
    "Argo.Canusb.C30_false"
   ],
   "note": "False: every claim is addressed to 225."
  },
  {
   "property": "C31",
   "status": "partial",
   "theorems": [
    "Argo.Canusb.C31_conflicts",
    "Argo.Canusb.C31_false_range"
   ],
   "note": "Address arithmetic proved for all histories; staying within 0..251 is false."
  },
  {
   "property": "C32",
   "status": "partial",
   "theorems": [
    "Argo.Canusb.C32_false"
   ],
   "note": "False: it always panics."
  },
  {
   "property": "C33",
   "status": "proved",
   "theorems": [
    "Argo.Nmea2k.C33_first",
    "Argo.Nmea2k.C33_last",
    "Argo.Nmea2k.C33_first_le_last",
    "Argo.Nmea2k.C33_contiguous",
    "Argo.Nmea2k.C33_definition"
   ],
   "note": ""
  },
  {
   "property": "C34",
   "status": "proved",
   "theorems": [
    "Argo.Nmea2k.C34_offsets"
   ],
   "note": ""
  },
  {
   "property": "C35",
   "status": "proved",
   "theorems": [
    "Argo.Nmea2k.C35_number"
   ],
   "note": ""
  },
  {
   "property": "C36",
   "status": "partial",
   "theorems": [
    "Argo.Nmea2k.C36_false",
    "Argo.Nmea2k.C36_false_witness"
   ],
   "note": "False: the not-available test never succeeds, proved for every input."
  },
  {
   "property": "C37",
   "status": "partial",
   "theorems": [
    "Argo.Nmea2k.C37_partial",
    "Argo.Nmea2k.C37_false",
    "Argo.Nmea2k.C37_false_witness"
   ],
   "note": "Proved for widths 8, 16, 32, 64; false for other widths."
  },
  {
   "property": "C38",
   "status": "partial",
   "theorems": [
    "Argo.Nmea2k.C38_partial",
    "Argo.Nmea2k.C38_list",
    "Argo.Nmea2k.C38_false",
    "Argo.Nmea2k.C38_false_wide",
    "Argo.Nmea2k.C38_repetitions_partial"
   ],
   "note": "Proved for all shipped fields except 28 straddling and 3 over-wide ones, for which it is false."
  },
  {
   "property": "C39",
   "status": "proved",
   "theorems": [
    "Argo.Nmea2k.C39_latlon"
   ],
   "note": ""
  },
  {
   "property": "C40",
   "status": "partial",
   "theorems": [
    "Argo.Nmea2k.C40_partial",
    "Argo.Nmea2k.C40_false"
   ],
   "note": "Exact below day 49711, false from there on."
  },
  {
   "property": "C41",
   "status": "partial",
   "theorems": [
    "Argo.Nmea2k.C41_partial",
    "Argo.Nmea2k.C41_false"
   ],
   "note": "Whole seconds exact; fraction ten times too small."
  },
  {
   "property": "C42",
   "status": "proved",
   "theorems": [
    "Argo.Nmea2k.C42_scaled"
   ],
   "note": ""
  },
  {
   "property": "C43",
   "status": "partial",
   "theorems": [
    "Argo.Nmea2k.C43_partial",
    "Argo.Nmea2k.C43_false"
   ],
   "note": "False when the field ends exactly at the end of the message."
  },
  {
   "property": "C44",
   "status": "partial",
   "theorems": [
    "Argo.Nmea2k.C44_partial",
    "Argo.Nmea2k.C44_false"
   ],
   "note": "Panics when start+length wraps past 255."
  },
  {
   "property": "C45",
   "status": "proved",
   "theorems": [
    "Argo.Nmea2k.C45_general",
    "Argo.Nmea2k.C45_terminates",
    "Argo.Nmea2k.C45_needs_positive_group"
   ],
   "note": ""
  },
  {
   "property": "C46",
   "status": "partial",
   "theorems": [
    "Argo.Nmea2k.C46_exact",
    "Argo.Nmea2k.C46_partial",
    "Argo.Nmea2k.C46_lz_pgns",
    "Argo.Nmea2k.C46_130842",
    "Argo.Nmea2k.C46_60928",
    "Argo.Nmea2k.C46_false"
   ],
   "note": "False as stated (C46_false); C46_exact: for the shipped table and every message, the exact condition under which decoding panics."
  },
  {
   "property": "C47",
   "status": "partial",
   "theorems": [
    "Argo.Nmea2k.C47_search",
    "Argo.Nmea2k.C47_partial",
    "Argo.Nmea2k.C47_general",
    "Argo.Nmea2k.C47_range",
    "Argo.Nmea2k.C47_single",
    "Argo.Nmea2k.C47_false_unmatched",
    "Argo.Nmea2k.C47_false_130820",
    "Argo.Nmea2k.C47_false_130816",
    "Argo.Nmea2k.C47_text_false",
    "Argo.Nmea2k.C47_126720"
   ],
   "note": "C47_search: exactly which definition any message of a multi-definition PGN is read by. The intended rule is proved for all of them but 130816 and 130820; false for those two (no message at all is read as the text message of Simrad: C47_text_false), and unmatched messages get the next PGN."
  },
  {
   "property": "C48",
   "status": "proved",
   "theorems": [
    "Argo.Nmea2k.C48_unknown"
   ],
   "note": ""
  },
  {
   "property": "C49",
   "status": "proved",
   "theorems": [
    "Argo.Nmea2k.C49_shape"
   ],
   "note": ""
  },
  {
   "property": "C50",
   "status": "proved",
   "theorems": [
    "Argo.Nmea2k.C50_entries",
    "Argo.Nmea2k.C50_fixed",
    "Argo.Nmea2k.C50_shipped"
   ],
   "note": ""
  },
  {
   "property": "C51",
   "status": "proved",
   "theorems": [
    "Argo.Nmea2k.C51_print",
    "Argo.Nmea2k.C51_shipped",
    "Argo.Nmea2k.print_needs_parsed"
   ],
   "note": ""
  },
  {
   "property": "C52",
   "status": "partial",
   "theorems": [
    "Argo.Nmea2k.C52_import",
    "Argo.Nmea2k.C52_order",
    "Argo.Nmea2k.C52_multiple",
    "Argo.Nmea2k.C52_false"
   ],
   "note": "All parts proved except rejection of malformed lines, which is false."
  },
  {
   "property": "C53",
   "status": "partial",
   "theorems": [
    "Argo.Signalk.C53_delta_partial",
    "Argo.Signalk.C53_false",
    "Argo.Signalk.C53_shipped",
    "Argo.Signalk.C53_replace"
   ],
   "note": "Full for the shipped mapping file (C53_shipped). In general the conditions of a group with a fieldset are not checked by the code (C53_false)."
  },
  {
   "property": "C54",
   "status": "proved",
   "theorems": [
    "Argo.Signalk.C54_once"
   ],
   "note": ""
  },
  {
   "property": "C55",
   "status": "proved",
   "theorems": [
    "Argo.Signalk.C55_reported",
    "Argo.Signalk.C55_exact",
    "Argo.Signalk.C55_number",
    "Argo.Signalk.C55_number_range",
    "Argo.Signalk.C55_number_malformed"
   ],
   "note": ""
  },
  {
   "property": "C56",
   "status": "partial",
   "theorems": [
    "Argo.Signalk.C56_order_partial",
    "Argo.Signalk.C56_separate",
    "Argo.Signalk.C56_shipped",
    "Argo.Signalk.C56_false"
   ],
   "note": "Proved without fieldsets, with one separate fieldset, and for the shipped file; false in general."
  },
  {
   "property": "C57",
   "status": "proved",
   "theorems": [
    "Argo.Signalk.C57_update"
   ],
   "note": ""
  },
  {
   "property": "C58",
   "status": "partial",
   "theorems": [
    "Argo.Signalk.C58_exact",
    "Argo.Signalk.C58_conjunction_partial",
    "Argo.Signalk.C58_false_unknown",
    "Argo.Signalk.C58_false_text"
   ],
   "note": "Exact characterisation proved; the conjunction holds only with known operations, numbers compare as text."
  },
  {
   "property": "C59",
   "status": "partial",
   "theorems": [
    "Argo.Signalk.C59_repetition_partial",
    "Argo.Signalk.C59_delta_partial",
    "Argo.Signalk.C59_shipped",
    "Argo.Signalk.C59_limit",
    "Argo.Signalk.C59_false"
   ],
   "note": "Holds when the field index is below the group size; otherwise only the first repetition is selected. End to end for the shipped files: C59_shipped."
  },
  {
   "property": "C60",
   "status": "partial",
   "theorems": [
    "Argo.Signalk.C60_exact",
    "Argo.Signalk.C60_delta_partial",
    "Argo.Signalk.C60_shipped",
    "Argo.Signalk.C60_false"
   ],
   "note": "Exact panic condition; no panic for parsed messages with the shipped files."
  },
  {
   "property": "C61",
   "status": "partial",
   "theorems": [
    "Argo.Signalk.C61_any",
    "Argo.Signalk.C61_text",
    "Argo.Signalk.C61_lookup",
    "Argo.Signalk.C61_utc_partial",
    "Argo.Signalk.C61_shipped",
    "Argo.Signalk.C61_false_zone",
    "Argo.Signalk.C61_false_empty"
   ],
   "note": "Right only when the machine runs in UTC; values that are not times give empty texts."
  },
  {
   "property": "C62",
   "status": "proved",
   "theorems": [
    "Argo.Signalk.C62_merge"
   ],
   "note": ""
  },
  {
   "property": "C63",
   "status": "proved",
   "theorems": [
    "Argo.Hub.C63_delivery",
    "Argo.Hub.C63_prefix",
    "Argo.Hub.C63_drop_iff",
    "Argo.Hub.C63_close"
   ],
   "note": ""
  },
  {
   "property": "C64",
   "status": "proved",
   "theorems": [
    "Argo.Hub.C64_no_panic",
    "Argo.Hub.C64_hub_never_waits",
    "Argo.Hub.C64_broadcast_ends"
   ],
   "note": ""
  },
  {
   "property": "C65",
   "status": "partial",
   "theorems": [
    "Argo.Hub.C65_unregister_partial",
    "Argo.Hub.C65_false"
   ],
   "note": "False of the code: unregistering a client that the hub has already dropped closes a closed channel (C65_false). Proved: an unregister request for a client that is still registered is safe in every schedule. No code path of argo sends an unregister request."
  },
  {
   "property": "C66",
   "status": "proved",
   "theorems": [
    "Argo.Hub.C66_alone",
    "Argo.Hub.C66_isolation"
   ],
   "note": ""
  },
  {
   "property": "C67",
   "status": "proved",
   "theorems": [
    "Argo.Main.C67_run",
    "Argo.Main.C67_statistics"
   ],
   "note": "Any sort routine meeting the contract of sort.Sort; counters are 64-bit, so the count is modulo 2^64."
  },
  {
   "property": "C68",
   "status": "proved",
   "theorems": [
    "Argo.Main.C68_filter",
    "Argo.Main.C68_default"
   ],
   "note": ""
  },
  {
   "property": "C69",
   "status": "proved",
   "theorems": [
    "Argo.Main.C69_order",
    "Argo.Main.C69_progress"
   ],
   "note": ""
  },
  {
   "property": "C70",
   "status": "proved",
   "theorems": [
    "Argo.Main.C70_index",
    "Argo.Main.C70_all",
    "Argo.Main.C70_partition"
   ],
   "note": "strings.EqualFold is a parameter."
  },
  {
   "property": "C71",
   "status": "partial",
   "theorems": [
    "Argo.Main.C71_by_index",
    "Argo.Main.C71_by_pgn",
    "Argo.Main.C71_shipped",
    "Argo.Main.C71_link",
    "Argo.Main.C71_panic_iff",
    "Argo.Main.C71_false",
    "Argo.Main.C71_parts",
    "Argo.Main.C71_number",
    "Argo.Main.C71_large",
    "Argo.Main.C71_malformed",
    "Argo.Main.C71_negative_false"
   ],
   "note": "False of the code for negative numbers: the handler panics exactly on them (C71_panic_iff, C71_false). Everything else is proved for every table and key."
  },
  {
   "property": "C72",
   "status": "partial",
   "theorems": [
    "Argo.Main.Control.C72_false",
    "Argo.Main.Control.C72_get_partial"
   ],
   "note": "False of the code: no goroutine receives from the command channel, so in no schedule is a POST answered. Other methods are answered."
  },
  {
   "property": "C73",
   "status": "partial",
   "theorems": [
    "Argo.Config.C73_value",
    "Argo.Config.C73_error",
    "Argo.Config.C73_defaults_partial",
    "Argo.Config.C73_affected",
    "Argo.Config.C73_documented",
    "Argo.Config.C73_false"
   ],
   "note": "False of the code for explicit zero values of the twelve settings that have a default (C73_false, C73_affected). The exact rule is proved for every file (C73_value). mergo is modelled from its documentation."
  },
  {
   "property": "C74",
   "status": "proved",
   "theorems": [
    "Argo.Config.C74_uuid",
    "Argo.Config.C74_unique"
   ],
   "note": ""
  },
  {
   "property": "C75",
   "status": "partial",
   "theorems": [
    "Argo.Config.C75_rule",
    "Argo.Config.C75_update_partial",
    "Argo.Config.C75_sticky",
    "Argo.Config.C75_false"
   ],
   "note": "False of the code: only unset settings change (C75_false, C75_sticky). The exact rule is C75_rule."
  },
  {
   "property": "C76",
   "status": "partial",
   "theorems": [
    "Argo.Config.C76_save",
    "Argo.Config.C76_history_partial",
    "Argo.Config.C76_single",
    "Argo.Config.C76_repeat_false",
    "Argo.Config.C76_concurrent_false",
    "Argo.Config.C76_concurrent_backup_false",
    "Argo.Config.C76_disk_full_false"
   ],
   "note": "Proved for every crash point, chunking and history of completed saves; false for a save after a crashed one, for concurrent saves and for failing writes."
  },
  {
   "property": "C77",
   "status": "partial",
   "theorems": [
    "Argo.Packages.C77_exact",
    "Argo.Packages.C77_scope",
    "Argo.Packages.C77_listing_partial",
    "Argo.Packages.C77_sound",
    "Argo.Packages.C77_lookup",
    "Argo.Packages.C77_empty",
    "Argo.Packages.C77_keys",
    "Argo.Packages.C77_false"
   ],
   "note": "False of the code: one package directory without a readable package.json empties its level (C77_false, C77_empty). The exact result is proved for every tree (C77_exact). JSON is a parameter, and so is filepath.Join for locations; that the keys are computed right is C77_keys."
  },
  {
   "property": "C78",
   "status": "proved",
   "theorems": [
    "Argo.Packages.C78_pipe_before_start",
    "Argo.Packages.C78_handshake",
    "Argo.Packages.C78_leak",
    "Argo.Packages.C78_waits"
   ],
   "note": ""
  },
  {
   "property": "C79",
   "status": "proved",
   "theorems": [
    "Argo.Nmea2k.C79_marshal",
    "Argo.Json.C79_json",
    "Argo.Json.C79_total"
   ],
   "note": "Float texts are a parameter (any JSON number); C79_total is for messages decoded with the shipped table."
  },
  {
   "property": "C80",
   "status": "proved",
   "theorems": [
    "Argo.Canusb.C80_open"
   ],
   "note": ""
  },
  {
   "property": "C81",
   "status": "proved",
   "theorems": [
    "Argo.Main.C81_outputs",
    "Argo.Main.C81_crash_iff"
   ],
   "note": ""
  },
  {
   "property": "C82",
   "status": "proved",
   "theorems": [
    "Argo.Main.C82_client",
    "Argo.Main.C82_caught_up"
   ],
   "note": ""
  },
  {
   "property": "C83",
   "status": "partial",
   "theorems": [
    "Argo.Config.C83_roundtrip",
    "Argo.Config.C83_uuid_stale_false"
   ],
   "note": "The round trip is proved for every file; after an admin POST the UUID parts in memory are stale until restart (C83_uuid_stale_false)."
  },
  {
   "property": "C84",
   "status": "partial",
   "theorems": [
    "Argo.Packages.C84_returns_partial",
    "Argo.Packages.C84_hang_false"
   ],
   "note": "Proved for every schedule when no line of output reaches the scanner limit; otherwise installPackage can hang forever (C84_hang_false)."
  },
  {
   "property": "C85",
   "status": "proved",
   "theorems": [
    "Argo.Canusb.C85_writes",
    "Argo.Canusb.C85_too_long",
    "Argo.Canusb.C85_total",
    "Argo.Canusb.C85_groups"
   ],
   "note": ""
  },
  {
   "property": "C86",
   "status": "partial",
   "theorems": [
    "Argo.Routes.C86_api",
    "Argo.Routes.C86_websockets",
    "Argo.Routes.C86_pages",
    "Argo.Routes.C86_apps",
    "Argo.Routes.C86_clean",
    "Argo.Routes.C86_disabled",
    "Argo.Routes.C86_installed_url",
    "Argo.Routes.C86_link_partial",
    "Argo.Routes.C86_details_partial",
    "Argo.Routes.C86_link_false",
    "Argo.Routes.C86_details_false",
    "Argo.Routes.C86_install_shadowed_false",
    "Argo.Routes.C86_exposed_false",
    "Argo.Routes.C86_startup_false"
   ],
   "note": "API, WebSocket endpoints and pages proved for every path, registration order and app list. False: details links are 404s, prefix routes shadow /apps/install and expose other packages, links of renamed apps, requests during startup. ServeMux and gorilla/mux matching are modelled from their documentation."
  },
  {
   "property": "C87",
   "status": "proved",
   "theorems": [
    "Argo.Hub.C87_stalled",
    "Argo.Hub.C87_backlog"
   ],
   "note": ""
  },
  {
   "property": "C88",
   "status": "proved",
   "theorems": [
    "Argo.Iface.C88_exit",
    "Argo.Iface.C88_not_serial",
    "Argo.Iface.C88_canusb",
    "Argo.Iface.C88_ngt",
    "Argo.Iface.C88_file",
    "Argo.Iface.C88_registry",
    "Argo.Iface.C88_registry_again"
   ],
   "note": ""
  },
  {
   "property": "C89",
   "status": "proved",
   "theorems": [
    "Argo.Iface.C89_play",
    "Argo.Iface.C89_message",
    "Argo.Iface.C89_deterministic",
    "Argo.Iface.C89_long_line",
    "Argo.Iface.C89_cases",
    "Argo.Iface.C89_unreadable"
   ],
   "note": "JSON decoding of a line is a parameter here; C125 and C126 are about the bytes of the line. Stated with the 65536 byte limit of bufio.Scanner: C89_cases shows every content falls under C89_play or C89_long_line."
  },
  {
   "property": "C90",
   "status": "partial",
   "theorems": [
    "Argo.Iface.C90_handover",
    "Argo.Iface.C90_ngt_partial",
    "Argo.Iface.C90_values",
    "Argo.Iface.C90_harmless",
    "Argo.Iface.C90_died",
    "Argo.Iface.C90_error",
    "Argo.Iface.C90_false"
   ],
   "note": "False of the code: a short message kills the process (C90_false). Proved: hand-over is the decoding, in order (C90_handover); if every message on the wire is harmless for the table nothing dies (C90_ngt_partial); when it dies it is on a message that is not harmless (C90_died)."
  },
  {
   "property": "C91",
   "status": "partial",
   "theorems": [
    "Argo.Iface.C91_handover",
    "Argo.Iface.C91_addresses",
    "Argo.Iface.C91_canusb_partial",
    "Argo.Iface.C91_fast_packet_partial",
    "Argo.Iface.C91_false"
   ],
   "note": "False of lone continuation frames (C91_false; exactly those, C25). Order and content are proved for every stream (C91_handover, C91_addresses); survival for streams of complete lines that do not crash the reader and whose messages are harmless, exactly which inputs are fatal: C98; several CANUSB interfaces at once: C96."
  },
  {
   "property": "C92",
   "status": "proved",
   "theorems": [
    "Argo.Main.C92_safe",
    "Argo.Main.C92_progress",
    "Argo.Main.C92_any"
   ],
   "note": "For messages the interfaces made (GenuineInput: decodings of received messages or imported file lines, iterated in any order)."
  },
  {
   "property": "C93",
   "status": "partial",
   "theorems": [
    "Argo.Main.C93_any",
    "Argo.Main.C93_any_complete",
    "Argo.Main.C93_origin",
    "Argo.Main.C93_ngt",
    "Argo.Main.C93_complete",
    "Argo.Iface.C91_false",
    "Argo.Canusb.C96_false"
   ],
   "note": "C93_any and C93_any_complete hold for every input of every kind and number of interfaces. False only in that a CANUSB delivers continuation frames without a beginning (C91_false) and packets mixed between adapters (C96_false); for streams without those and without crashing data: C93_origin, C93_complete."
  },
  {
   "property": "C94",
   "status": "proved",
   "theorems": [
    "Argo.Main.C94_catch_up",
    "Argo.Main.C94_statistics"
   ],
   "note": ""
  },
  {
   "property": "C95",
   "status": "partial",
   "theorems": [
    "Argo.Main.C95_partial",
    "Argo.Main.C95_false"
   ],
   "note": "False of the code: Print shows only the fields numbered below the number of values (C95_false); C95_partial is the exact set of fields shown."
  },
  {
   "property": "C96",
   "status": "partial",
   "theorems": [
    "Argo.Canusb.C96_false",
    "Argo.Canusb.C96_independent_partial",
    "Argo.Canusb.C96_lines_partial",
    "Argo.Canusb.C96_origin"
   ],
   "note": "False of the code (C96_false). Proved for adapters that do not receive fast packets of the same PGN, source and group (C96_independent_partial: any bytes, errors and interleaving); where every message comes from in any case: C96_origin. One loop body is atomic in the model; data races on the shared map are not modelled."
  },
  {
   "property": "C97",
   "status": "proved",
   "theorems": [
    "Argo.Main.C97_client",
    "Argo.Main.C97_caught_up"
   ],
   "note": ""
  },
  {
   "property": "C98",
   "status": "proved",
   "theorems": [
    "Argo.Main.C98_cause",
    "Argo.Main.C98_ngt_deadly",
    "Argo.Main.C98_canusb_deadly",
    "Argo.Main.C98_ngt_fatal",
    "Argo.Main.C98_canusb_fatal",
    "Argo.Main.C98_runs",
    "Argo.Iface.C98_deadly",
    "Argo.Iface.C98_harmless"
   ],
   "note": "For the interfaces, the loop and the hubs, with the shipped tables and settings that do not change (C110). C98_deadly and C98_harmless: exactly which messages the decoder always, and never, dies of; only for address claims of no or six bytes and for overrunning NGT-1 frames does it depend on the memory behind the data."
  },
  {
   "property": "C99",
   "status": "proved",
   "theorems": [
    "Argo.Main.C99_contents",
    "Argo.Main.C99_complete",
    "Argo.Main.C99_field",
    "Argo.Main.C99_wire",
    "Argo.Signalk.C99_delta"
   ],
   "note": "For the shipped tables and mapping file. Encoding the delta as JSON is a parameter (see C104); C99_wire is for an NGT-1, frames whose PGN has one definition without repetition and a total encoder."
  },
  {
   "property": "C100",
   "status": "partial",
   "theorems": [
    "Argo.Nmea2k.C100_partial",
    "Argo.Nmea2k.C100_any_partial",
    "Argo.Nmea2k.C100_fields",
    "Argo.Nmea2k.C100_fits",
    "Argo.Nmea2k.C100_false",
    "Argo.Nmea2k.C100_recover",
    "Argo.Nmea2k.C100_ambiguous_false"
   ],
   "note": "Proved for all fields that look their number up and for manufacturers; false for 19 fields that have a table but are decoded as numbers; in five tables a name does not determine the number."
  },
  {
   "property": "C101",
   "status": "partial",
   "theorems": [
    "Argo.Nmea2k.C101_claim",
    "Argo.Nmea2k.C101_partial",
    "Argo.Nmea2k.C101_false",
    "Argo.Nmea2k.C101_false_names"
   ],
   "note": "All fields but the device function are decoded by their tables; the function is shown as empty text unless its number is 0."
  },
  {
   "property": "C102",
   "status": "partial",
   "theorems": [
    "Argo.Signalk.C102_partial",
    "Argo.Signalk.C102_false"
   ],
   "note": "49 of the 51 groups have an effect; the two for PGN 130820 never do, because their conditions compare names with numbers."
  },
  {
   "property": "C103",
   "status": "partial",
   "theorems": [
    "Argo.Can.C103_raw",
    "Argo.Can.C103_frame",
    "Argo.Can.C103_layout",
    "Argo.Can.C103_frame_layout",
    "Argo.Can.C103_false"
   ],
   "note": "Proved for the log line of a raw message. The text of a CAN frame omits its fast packet group (C103_false); C103_frame is what it determines."
  },
  {
   "property": "C104",
   "status": "proved",
   "theorems": [
    "Argo.Json.C104_delta",
    "Argo.Json.C104_total",
    "Argo.Json.C104_client",
    "Argo.Json.C104_wire"
   ],
   "note": "The text of a float is a parameter (any JSON number), as is the local time zone (offsets below a day) and the clock (years 0 to 9999). C104_total is for messages decoded from the bus."
  },
  {
   "property": "C105",
   "status": "partial",
   "theorems": [
    "Argo.Json.C105_counters",
    "Argo.Json.C105_client",
    "Argo.Json.C105_index",
    "Argo.Json.C105_details",
    "Argo.Json.C105_uuid",
    "Argo.Json.C105_install_partial",
    "Argo.Json.C105_install_false"
   ],
   "note": "False only of the reply to an installation (C105_install_false); C105_install_partial covers texts that need no escape. Details of a definition are for the shipped table and lookup tables, JSON only. The texts of resolutions that are not codes are a parameter (any JSON number)."
  },
  {
   "property": "C106",
   "status": "proved",
   "theorems": [
    "Argo.Main.C106_accepted"
   ],
   "note": "strconv.ParseInt (base 0) and strings.ToUpper are parameters."
  },
  {
   "property": "C107",
   "status": "partial",
   "theorems": [
    "Argo.Main.C107_texts",
    "Argo.Main.C107_checks",
    "Argo.Main.C107_guarded",
    "Argo.Main.C107_interfaces",
    "Argo.Main.C107_servers",
    "Argo.Main.C107_listen_false",
    "Argo.Main.C107_broker",
    "Argo.Main.C107_level_partial",
    "Argo.Main.C107_option",
    "Argo.Main.C107_level_false",
    "Argo.Main.C107_messages",
    "Argo.Main.C107_saved_false"
   ],
   "note": "False of the listening address and TLS of the server, of the level none in lower case and of the file saved to (the _false theorems)."
  },
  {
   "property": "C108",
   "status": "proved",
   "theorems": [
    "Argo.Json.C108_explain"
   ],
   "note": "The texts of resolutions that are not codes are a parameter (any JSON number)."
  },
  {
   "property": "C109",
   "status": "partial",
   "theorems": [
    "Argo.Xml.C109_details_partial",
    "Argo.Xml.C109_claim_false",
    "Argo.Xml.C109_tables_false"
   ],
   "note": "False of tables of names and of PGN 60928 (the _false theorems); C109_details_partial is the exact contents otherwise. Texts of factors are a parameter."
  },
  {
   "property": "C110",
   "status": "partial",
   "theorems": [
    "Argo.Main.C110_published",
    "Argo.Main.C110_crash_iff",
    "Argo.Main.C110_false",
    "Argo.Json.C110_shipped",
    "Argo.Json.C110_shipped_crash"
   ],
   "note": "False when the broker is not enabled in the file (C110_false); C110_crash_iff is the exact set of histories. C110_shipped and C110_shipped_crash: the same for the shipped tables and mapping file and messages from ParsePacket or a file, with the JSON bytes that are published; there Print and Delta are proved not to panic, in the other two it is a hypothesis."
  },
  {
   "property": "C111",
   "status": "partial",
   "theorems": [
    "Argo.Main.Races.C111_free_partial",
    "Argo.Main.Races.C111_adapters",
    "Argo.Main.Races.C111_settings",
    "Argo.Main.Races.C111_connections",
    "Argo.Main.Races.C111_false"
   ],
   "note": "False of the code (C111_false); C111_free_partial is freedom from races otherwise, C111_adapters an exact characterisation for the registry of fast packets. The accesses of each goroutine are read off the code; what libraries synchronise besides net/http.ServeMux is left out."
  },
  {
   "property": "C112",
   "status": "proved",
   "theorems": [
    "Argo.Routes.C112_files",
    "Argo.Routes.C112_redirects",
    "Argo.Routes.C112_addresses",
    "Argo.Routes.C112_app",
    "Argo.Routes.C112_link",
    "Argo.Routes.C112_installed"
   ],
   "note": "path.Clean, filepath.Join, cleanPath of the routers and http.FileServer are modelled from their documentation; symbolic links are not modelled."
  },
  {
   "property": "C113",
   "status": "partial",
   "theorems": [
    "Argo.Packages.C113_rows",
    "Argo.Packages.C113_button",
    "Argo.Packages.C113_marked_partial",
    "Argo.Packages.C113_failures",
    "Argo.Packages.C113_option",
    "Argo.Packages.C113_argument_partial",
    "Argo.Packages.C113_installed_partial",
    "Argo.Packages.C113_reply_false",
    "Argo.Packages.C113_unmarked_false",
    "Argo.Packages.C113_argument_false",
    "Argo.Packages.C113_failure_false"
   ],
   "note": "False: replies with their own path, trees with a directory without package.json, versions with @, failed installations (the _false theorems). Escaping by html/template and HTML set by site.js: C119, C120."
  },
  {
   "property": "C114",
   "status": "partial",
   "theorems": [
    "Argo.Config.C114_rule",
    "Argo.Config.C114_shown",
    "Argo.Config.C114_unchanged_partial",
    "Argo.Config.C114_entered_partial",
    "Argo.Config.C114_uuid_entered",
    "Argo.Config.C114_generated",
    "Argo.Config.C114_uuid_false",
    "Argo.Config.C114_cleared_false"
   ],
   "note": "False: an unchanged page sets a missing UUID to four dashes for good (C114_uuid_false), cleared inputs have no effect (C114_cleared_false). C114_rule is the exact effect of every submission. The browser is a parameter. From the form to the bytes posted and back, and the numbers for which this holds: C133."
  },
  {
   "property": "C115",
   "status": "partial",
   "theorems": [
    "Argo.Json.C115_table",
    "Argo.Json.C115_caught_up",
    "Argo.Json.C115_catch_up",
    "Argo.Json.C115_rows_stay",
    "Argo.Json.C115_window_partial",
    "Argo.Json.C115_window_unknown",
    "Argo.Json.C115_window_false",
    "Argo.Json.C115_field_names"
   ],
   "note": "The table is proved for every schedule; the window is false for PGNs without a definition (C115_window_false), C115_window_unknown says what it shows. Printing of numbers by the browser is not modelled; the HTML of rows and names is C120."
  },
  {
   "property": "C116",
   "status": "partial",
   "theorems": [
    "Argo.Canusb.C116_panic",
    "Argo.Canusb.C116_long",
    "Argo.Canusb.C116_frame",
    "Argo.Canusb.C116_buffer",
    "Argo.Canusb.C116_modifies_false",
    "Argo.Canusb.C116_count_false"
   ],
   "note": "The frame and the panics are exact for every buffer; false: the buffer is changed (C116_modifies_false) and the number returned is not that of its bytes (C116_count_false)."
  },
  {
   "property": "C117",
   "status": "partial",
   "theorems": [
    "Argo.Nmea2k.C117_partial",
    "Argo.Nmea2k.C117_satisfied",
    "Argo.Nmea2k.C117_decoded",
    "Argo.Nmea2k.C117_origin",
    "Argo.Nmea2k.C117_start",
    "Argo.Nmea2k.C117_false"
   ],
   "note": "Every PGN but 60928 (C101) and every message: the entries are the fields of the definition returned, decoded at their places, except the entries of Spec.misread, for each of which it is false (C117_false); with the constraints of the definition satisfied there is no exception (C117_satisfied). C117_origin says which definition an entry was decoded with in every case. Messages returned as the definition after the last of their PGN (C47) are left open."
  },
  {
   "property": "C118",
   "status": "partial",
   "theorems": [
    "Argo.Main.C118_field",
    "Argo.Main.C118_received",
    "Argo.Main.C118_false",
    "Argo.Main.C118_false_voltage",
    "Argo.Json.C118_client",
    "Argo.Json.C118_complete",
    "Argo.Json.C118_ngt",
    "Argo.Json.C118_canusb",
    "Argo.Json.C118_fast"
   ],
   "note": "Every message of every PGN that is not empty, and not one byte of PGN 65001-65003 (C118_field), with all schedules (C118_client, C118_complete; C118_ngt from the bytes on the wire, C118_canusb from the messages of any number of CANUSB interfaces, C118_fast from the frames of a fast packet). False of those: an empty message is reported as zeros (C118_false), one byte as a voltage (C118_false_voltage). The text of a system time message is C61/C99. Texts of values are as fmt prints them (Prints)."
  },
  {
   "property": "C119",
   "status": "proved",
   "theorems": [
    "Argo.Html.C119_index",
    "Argo.Html.C119_setting",
    "Argo.Html.C119_form",
    "Argo.Html.C119_apps",
    "Argo.Html.C119_links",
    "Argo.Html.C119_kept"
   ],
   "note": "The templates are those of the repository (tools/gen_pages.py); html/template is modelled on the part they use, the browser by the states of the HTML tokenizer they reach, on anything else it reads nothing. The building of the document tree from the tokens is not modelled."
  },
  {
   "property": "C120",
   "status": "partial",
   "theorems": [
    "Argo.Html.C120_stats",
    "Argo.Html.C120_fields",
    "Argo.Html.C120_path_partial",
    "Argo.Html.C120_script_partial",
    "Argo.Html.C120_path_false",
    "Argo.Html.C120_script_false"
   ],
   "note": "False: the link of an app in a directory with an escape in its name (C120_path_false), and the name of an app just installed, which the script inserts as HTML (C120_script_false)."
  },
  {
   "property": "C121",
   "status": "proved",
   "theorems": [
    "Argo.Float.C121_value",
    "Argo.Float.C121_decoded",
    "Argo.Float.C121_recover",
    "Argo.Float.C121_angle",
    "Argo.Float.C121_factors",
    "Argo.Float.C121_client",
    "Argo.Float.C121_complete",
    "Argo.Float.C121_exact_false"
   ],
   "note": "IEEE rounding is computed (Round.lean); the texts by the documented contract of strconv (shortest digits that read back) and the layout of encoding/json. C121_exact_false: scaled numbers are not exact, so a tolerance is needed (7 tenths are not printed as 0.7)."
  },
  {
   "property": "C122",
   "status": "partial",
   "theorems": [
    "Argo.Float.C122_wide",
    "Argo.Float.C122_near_partial",
    "Argo.Float.C122_false",
    "Argo.Float.C122_delta_false"
   ],
   "note": "False of positions of 4 bytes: computed in float32, so that beyond 107 degrees 127 neighbouring positions have the same text (C122_false), end to end in C122_delta_false. C122_near_partial is what holds of them."
  },
  {
   "property": "C123",
   "status": "partial",
   "theorems": [
    "Argo.Json.C123_delta_partial",
    "Argo.Json.C123_client_partial",
    "Argo.Json.C123_complete_partial",
    "Argo.Json.C123_wrap_false",
    "Argo.Json.C123_zone_false",
    "Argo.Signalk.civil_calendar"
   ],
   "note": "Exact with the computer set to UTC and dates up to 6 February 2106. False otherwise: seconds since 1970 are kept in 32 bits (C123_wrap_false), and in other zones the text denotes another instant, west of UTC with the date of the day before (C123_zone_false). civil_calendar: the date formulas of the model are the calendar counted day by day."
  },
  {
   "property": "C124",
   "status": "partial",
   "theorems": [
    "Argo.Log.C124_total",
    "Argo.Log.C124_partial",
    "Argo.Log.C124_one_line",
    "Argo.Log.C124_forged_false",
    "Argo.Log.C124_newline_false",
    "Argo.Log.C124_temperature_false",
    "Argo.Log.C124_position_false"
   ],
   "note": "False for texts of the bus with a semicolon (C124_forged_false: two different messages, one line) or a line feed (C124_newline_false), and of numbers: six digits after the point of a binary number (C124_temperature_false, C124_position_false). C124_partial: without semicolons a reader recovers the receipt, the header, the description and every entry, numbers to half a millionth and the tolerance of C121. C124_one_line: exactly which messages make one line."
  },
  {
   "property": "C125",
   "status": "partial",
   "theorems": [
    "Argo.Playback.C125_json",
    "Argo.Playback.C125_exact",
    "Argo.Playback.C125_line_partial",
    "Argo.Playback.C125_malformed_false",
    "Argo.Playback.C125_number_false",
    "Argo.Playback.C125_case_false"
   ],
   "note": "C125_json: which lines are accepted (exactly JSON, unless something had to be replaced by U+FFFD). C125_exact says what is taken from any line. False for lines that are not JSON (C125_malformed_false: they become messages with PGN 0 from device 0), for header numbers that do not fit or are written with a point (C125_number_false: 0 in their place) and for names in another case (C125_case_false). C125_line_partial: every line in the form CanBoat writes is handed over as it is. The Go value of a JSON value in the fields is a parameter."
  },
  {
   "property": "C126",
   "status": "partial",
   "theorems": [
    "Argo.Playback.C126_exact",
    "Argo.Playback.C126_refused",
    "Argo.Playback.C126_line",
    "Argo.Playback.C126_partial",
    "Argo.Playback.C126_shown",
    "Argo.Playback.C126_zone_false",
    "Argo.Playback.C126_dash_false"
   ],
   "note": "C126_exact: exactly which texts are understood and as what; C126_refused: all others give the year 1; C126_line: what that means for any line. False for the time stamps CanBoat writes: with a Z or another character outside the layout (C126_zone_false, every such text) and with a dash between date and time (C126_dash_false) the message is given the year 1. C126_partial: every time stamp of the layout without zone, with up to nine digits of a second, is the instant the message is given and the log shows it; C126_shown: with three digits the log shows the text of the line itself."
  },
  {
   "property": "C127",
   "status": "proved",
   "theorems": [
    "Argo.Socket.C127_stream",
    "Argo.Socket.C127_texts",
    "Argo.Socket.C127_client",
    "Argo.Socket.C127_close",
    "Argo.Socket.C127_delta",
    "Argo.Socket.C127_page"
   ],
   "note": "C127_stream: the bytes of any connection, cut anywhere and with a write failing anywhere, against a reader of RFC 6455; C127_texts, C127_client: the texts are an initial part of the broadcasts since registration; C127_close: after a close, all that was accepted; C127_delta: with the whole program, every text is the JSON of a delta (its hypotheses are those of C104 and that no message has 2^63 bytes). C127_page: the statistics connection and the table of the front page, from its bytes. The handshake and what the client sends are not modelled; WriteMessage is that of gorilla/websocket 1.2.0 for a server without compression."
  },
  {
   "property": "C128",
   "status": "partial",
   "theorems": [
    "Argo.Log.C128_partial",
    "Argo.Log.C128_forged_false",
    "Argo.Log.C128_password_false"
   ],
   "note": "False of posted settings: any text can be made a line of the loop by a POST to /admin, which needs no password (C128_forged_false), and the broker password posted is written to the log (C128_password_false). C128_partial: at any moment of any schedule, with any records of other goroutines between those of the loop, a reader of the lines marked INFO finds the messages taken that pass the options, in order, one line each, with the content of C124, if no text of the bus and no posted setting has a line feed. Records of other goroutines are not marked INFO (log.Info is called at argo.go:168 only) and keep to a line (hypothesis Other)."
  },
  {
   "property": "C129",
   "status": "partial",
   "theorems": [
    "Argo.Http.C129_pages",
    "Argo.Http.C129_uuid",
    "Argo.Http.C129_data",
    "Argo.Http.C129_index_false",
    "Argo.Http.C129_details_false",
    "Argo.Http.C129_xml_false"
   ],
   "note": "Pages and the UUID are labelled correctly and no data is labelled as HTML (C129_data), for all inputs; false of the API: every JSON reply of the index and the details (C129_index_false, C129_details_false) and every XML reply (C129_xml_false) is labelled as plain text. net/http is modelled from its documentation and source as remembered, it is not in /repo. Files of apps and assets, redirects and error pages of net/http are not modelled."
  },
  {
   "property": "C130",
   "status": "partial",
   "theorems": [
    "Argo.Toml.C130_file_partial",
    "Argo.Toml.C130_restart_partial",
    "Argo.Toml.C130_backslash_false",
    "Argo.Toml.C130_newline_false",
    "Argo.Toml.C130_speed_false",
    "Argo.Toml.C130_refused_false",
    "Argo.Toml.C130_stuck_false",
    "Argo.Toml.C130_control_false",
    "Argo.Toml.C130_nul_false",
    "Argo.Toml.C130_empty_false"
   ],
   "note": "Proved for every configuration whose interface names have no backslash or line end (Savable); false otherwise, for every such configuration (the _false theorems are general). The encoder of github.com/burntsushi/toml v0.2.0 is modelled on the types of TomlConfig; the reader is a separate specification of TOML 0.4 without floats, dates, arrays and multi-line strings."
  },
  {
   "property": "C131",
   "status": "partial",
   "theorems": [
    "Argo.Html.C131_page",
    "Argo.Html.C131_rows_partial",
    "Argo.Html.C131_row_false",
    "Argo.Html.C131_list_false",
    "Argo.Html.C131_saved_partial",
    "Argo.Html.C131_saved_false",
    "Argo.Html.C131_open_false",
    "Argo.Html.C131_types_partial",
    "Argo.Html.C131_types_false",
    "Argo.Html.C131_inputs"
   ],
   "note": "Adding an interface only adds a row to the list of the page; rows, inputs of the dialog and settings are described for every history. False: configured interfaces are not listed, added ones are never saved, opening the dialog saves the settings, three of the five types end the program, speed and file are never read."
  },
  {
   "property": "C132",
   "status": "proved",
   "theorems": [
    "Argo.Query.C132_query",
    "Argo.Query.C132_index",
    "Argo.Query.C132_other",
    "Argo.Query.C132_all"
   ],
   "note": "From the bytes of the address to the JSON reply, for every way to write the parameters and both behaviours of net/url; categories that are not ASCII list nothing, except through the two characters that fold to ASCII letters."
  },
  {
   "property": "C133",
   "status": "partial",
   "theorems": [
    "Argo.Config.C133_post",
    "Argo.Config.C133_page_partial",
    "Argo.Config.C133_rounded_partial",
    "Argo.Config.C133_huge_false",
    "Argo.Config.C133_refused_iff"
   ],
   "note": "C133_post is the exact effect of every body (bytes) posted to /admin. What the settings page posts is what its form says for every text and for numbers up to 2^53 (C133_page_partial); numbers below 2^63 are stored to within the rounding of a double (C133_rounded_partial); false for numbers from 2^63 on, for which the whole submission is refused (C133_huge_false), and only for those (C133_refused_iff)."
  },
  {
   "property": "C134",
   "status": "partial",
   "theorems": [
    "Argo.Toml.C134_entered_partial",
    "Argo.Toml.C134_always_partial",
    "Argo.Toml.C134_certificate_false",
    "Argo.Toml.C134_nul_false",
    "Argo.Toml.C134_huge_false"
   ],
   "note": "From what is entered in the settings page, through the bytes posted and the bytes of argo.conf, to the configuration of the next start, after any bodies posted before. False: the certificate is never kept, a text with a NUL makes a file on which argo cannot be started, and one number of 2^63 or more drops the submission. Numbers between 2^53 and 2^63 are rounded as a double."
  },
  {
   "property": "C135",
   "status": "partial",
   "theorems": [
    "Argo.Log.C135_which",
    "Argo.Log.C135_entry",
    "Argo.Log.C135_control_false"
   ],
   "note": "For requests whose target is a path or an asterisk (absolute-form targets are a parameter). Whether control characters are refused depends on the version of net/url; false for versions before Go 1.12 (C135_control_false)."
  },
  {
   "property": "C136",
   "status": "partial",
   "theorems": [
    "Argo.Toml.C136_missing",
    "Argo.Toml.C136_next_partial",
    "Argo.Toml.C136_backup",
    "Argo.Toml.C136_empty_false",
    "Argo.Toml.C136_broken_false",
    "Argo.Toml.C136_lost_false",
    "Argo.Toml.C136_mixed_false"
   ],
   "note": "C136_next_partial: what is in argo.conf after dying at any point, and what the next start has if it is the old or the whole new text. False: in every save there is a point after which argo starts with the defaults (C136_empty_false), after which the first settings saved overwrite the backup (C136_lost_false), and one after which it cannot be started (C136_broken_false); and one after each line before the interfaces, after which it starts with the settings up to there, the defaults for the others and no interfaces (C136_mixed_false, general). The owner can always get the old settings back from one of the two files, before anything else is saved (C136_backup)."
  }
 ]
}