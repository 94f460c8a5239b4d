{
 "claims": [
  {
   "property": "C01",
   "status": "proved",
   "theorems": [
    "Uecho.Props.C01_parse_safe",
    "Uecho.Props.C01_parsepacket_safe"
   ],
   "note": "for every byte block and every message object reachable through the API"
  },
  {
   "property": "C02",
   "status": "proved",
   "theorems": [
    "Uecho.Props.C02_serialise_parse"
   ],
   "note": ""
  },
  {
   "property": "C03",
   "status": "proved",
   "theorems": [
    "Uecho.Props.C03_parse_serialise"
   ],
   "note": ""
  },
  {
   "property": "C04",
   "status": "proved",
   "theorems": [
    "Uecho.Props.C04_grammar",
    "Uecho.Props.C04_content"
   ],
   "note": ""
  },
  {
   "property": "C05",
   "status": "proved",
   "theorems": [
    "Uecho.Props.C05_size_bytes"
   ],
   "note": ""
  },
  {
   "property": "C06",
   "status": "proved",
   "theorems": [
    "Uecho.Props.C06_tid_round_trip"
   ],
   "note": ""
  },
  {
   "property": "C07",
   "status": "partial",
   "theorems": [
    "Uecho.Props.C07_violated",
    "Uecho.Props.C07_wire_bytes_partial"
   ],
   "note": "the code violates the property: htons followed by shifting makes the wire order depend on the host; the exact bytes per host are proved"
  },
  {
   "property": "C08",
   "status": "proved",
   "theorems": [
    "Uecho.Props.C08_message_codes",
    "Uecho.Props.C08_object_code"
   ],
   "note": ""
  },
  {
   "property": "C09",
   "status": "partial",
   "theorems": [
    "Uecho.Props.C09_violated",
    "Uecho.Props.C09_copy_partial",
    "Uecho.Props.C09_message_copy_partial"
   ],
   "note": "violated for SetGet messages (their sections are not copied); proved for all other ESVs"
  },
  {
   "property": "C10",
   "status": "proved",
   "theorems": [
    "Uecho.Props.C10_equals"
   ],
   "note": ""
  },
  {
   "property": "C11",
   "status": "partial",
   "theorems": [
    "Uecho.Props.C11_violated",
    "Uecho.Props.C11_add_partial"
   ],
   "note": "the 256th addition is undefined behaviour; proved up to 255"
  },
  {
   "property": "C12",
   "status": "partial",
   "theorems": [
    "Uecho.Props.C12_violated",
    "Uecho.Props.C12_upsert_partial"
   ],
   "note": "undefined when the section already has 255 properties and the code is absent; proved otherwise"
  },
  {
   "property": "C13",
   "status": "proved",
   "theorems": [
    "Uecho.Props.C13_property_data",
    "Uecho.Props.C13_announce"
   ],
   "note": ""
  },
  {
   "property": "C14",
   "status": "proved",
   "theorems": [
    "Uecho.Props.C14_get_characterised",
    "Uecho.Props.C14_round_trip",
    "Uecho.Props.C14_set_ub",
    "Uecho.Props.C14_negative_ub"
   ],
   "note": ""
  },
  {
   "property": "C15",
   "status": "partial",
   "theorems": [
    "Uecho.Props.C15_violated",
    "Uecho.Props.C15_roles_partial"
   ],
   "note": "0x51 is not classified as a response; proved for the other 255 bytes"
  },
  {
   "property": "C16",
   "status": "proved",
   "theorems": [
    "Uecho.Props.C16_map_round_trip"
   ],
   "note": ""
  },
  {
   "property": "C17",
   "status": "partial",
   "theorems": [
    "Uecho.Props.C17_violated",
    "Uecho.Props.C17_bitmap_round_trip_partial"
   ],
   "note": "the writer loses or misplaces codes from 0xC0 on; proved for code sets below 0xC0"
  },
  {
   "property": "C18",
   "status": "proved",
   "theorems": [
    "Uecho.Props.C18_map_read_safe"
   ],
   "note": ""
  },
  {
   "property": "C19",
   "status": "partial",
   "theorems": [
    "Uecho.Props.C19_violated",
    "Uecho.Props.C19_map_read_partial"
   ],
   "note": "a map whose announced count exceeds its content leaves output cells uninitialised; proved otherwise"
  },
  {
   "property": "C20",
   "status": "partial",
   "theorems": [
    "Uecho.Props.C20_violated",
    "Uecho.Props.C20_maps_reflect_partial",
    "Uecho.Props.C20_update_partial"
   ],
   "note": "maps go stale after removal of the last property of a kind and with attribute changes of the map properties; proved for rebuilds"
  },
  {
   "property": "C21",
   "status": "proved",
   "theorems": [
    "Uecho.Props.C21_unique_codes"
   ],
   "note": ""
  },
  {
   "property": "C22",
   "status": "proved",
   "theorems": [
    "Uecho.Props.C22_set_frame"
   ],
   "note": ""
  },
  {
   "property": "C23",
   "status": "partial",
   "theorems": [
    "Uecho.Props.C23_violated",
    "Uecho.Props.C23_get_partial"
   ],
   "note": "asking for an absent code adds a property; proved for present codes"
  },
  {
   "property": "C24",
   "status": "proved",
   "theorems": [
    "Uecho.Props.C24_standard_properties",
    "Uecho.Props.C24_name",
    "Uecho.Props.C24_reports"
   ],
   "note": ""
  },
  {
   "property": "C25",
   "status": "partial",
   "theorems": [
    "Uecho.Props.C25_violated",
    "Uecho.Props.C25_attribute_partial"
   ],
   "note": "uecho_object_setpropertyattribute does not rebuild the maps; the attribute half is proved"
  },
  {
   "property": "C26",
   "status": "proved",
   "theorems": [
    "Uecho.Props.C26_unique_codes",
    "Uecho.Props.C26_duplicate_refused",
    "Uecho.Props.C26_setobject_existing",
    "Uecho.Props.C26_add",
    "Uecho.Props.C26_lookup"
   ],
   "note": ""
  },
  {
   "property": "C27",
   "status": "proved",
   "theorems": [
    "Uecho.Props.C27_class_list",
    "Uecho.Props.C27_has_class",
    "Uecho.Props.C27_no_duplicates"
   ],
   "note": ""
  },
  {
   "property": "C28",
   "status": "proved",
   "theorems": [
    "Uecho.Props.C28_profile_describes_node",
    "Uecho.Props.C28_getters"
   ],
   "note": "for nodes with fewer than 2^24 instances and 2^16 classes (the counters of the protocol)"
  },
  {
   "property": "C29",
   "status": "partial",
   "theorems": [
    "Uecho.Props.C29_list_fits_partial",
    "Uecho.Props.C29_long_list_lost_violated"
   ],
   "note": "from 85 instances on the list does not fit a property; proved for at most 84"
  },
  {
   "property": "C30",
   "status": "proved",
   "theorems": [
    "Uecho.Props.C30_response_answers_request"
   ],
   "note": "for nodes without NULL handlers (see C66)"
  },
  {
   "property": "C31",
   "status": "partial",
   "theorems": [
    "Uecho.Props.C31_success_partial",
    "Uecho.Props.C31_multi_property_violated"
   ],
   "note": "proved when each section names at most one property; every request naming two or more in a section gets the error ESV even if all are granted"
  },
  {
   "property": "C32",
   "status": "partial",
   "theorems": [
    "Uecho.Props.C32_error_partial",
    "Uecho.Props.C32_setc_violated"
   ],
   "note": "0x61 is answered 0x50 instead of 0x51; proved for the other services"
  },
  {
   "property": "C33",
   "status": "proved",
   "theorems": [
    "Uecho.Props.C33_read_values"
   ],
   "note": ""
  },
  {
   "property": "C34",
   "status": "proved",
   "theorems": [
    "Uecho.Props.C34_write_effect",
    "Uecho.Props.C34_not_named_unchanged",
    "Uecho.Props.C34_write_keeps",
    "Uecho.Props.C34_last_occurrence_wins",
    "Uecho.Props.C34_refused_unchanged",
    "Uecho.Props.C34_other_services_change_nothing"
   ],
   "note": ""
  },
  {
   "property": "C35",
   "status": "partial",
   "theorems": [
    "Uecho.Props.C35_write_ignores_attribute_violated",
    "Uecho.Props.C35_read_ignores_attribute_violated"
   ],
   "note": "the code never looks at the attributes: proved that a write to / read of any existing property without handler is granted whatever its attribute"
  },
  {
   "property": "C36",
   "status": "proved",
   "theorems": [
    "Uecho.Props.C36_unknown_object_ignored"
   ],
   "note": ""
  },
  {
   "property": "C37",
   "status": "proved",
   "theorems": [
    "Uecho.Props.C37_nonrequest_ignored",
    "Uecho.Props.C37_no_reply_loop"
   ],
   "note": ""
  },
  {
   "property": "C38",
   "status": "proved",
   "theorems": [
    "Uecho.Props.C38_setget_writes_then_reads"
   ],
   "note": ""
  },
  {
   "property": "C39",
   "status": "proved",
   "theorems": [
    "Uecho.Props.C39_last_registration_decides",
    "Uecho.Props.C39_refusal"
   ],
   "note": ""
  },
  {
   "property": "C40",
   "status": "partial",
   "theorems": [
    "Uecho.Props.C40_setget_handlers_ignored_violated",
    "Uecho.Props.C40_setget_uses_setc_get_handlers_partial"
   ],
   "note": "handlers registered for 0x6E are never consulted; those for 0x61 and 0x62 are"
  },
  {
   "property": "C41",
   "status": "proved",
   "theorems": [
    "Uecho.Props.C41_malformed_ignored"
   ],
   "note": ""
  },
  {
   "property": "C42",
   "status": "partial",
   "theorems": [
    "Uecho.Props.C42_announced_once_partial",
    "Uecho.Props.C42_otherwise_silent",
    "Uecho.Props.C42_write_request_announces",
    "Uecho.Props.C42_unparented_not_announced_violated"
   ],
   "note": "a property created by setting an attribute does not know its object and is never announced; proved for the others"
  },
  {
   "property": "C43",
   "status": "partial",
   "theorems": [
    "Uecho.Props.C43_source_always_profile_violated",
    "Uecho.Props.C43_announced_message_source_violated",
    "Uecho.Props.C43_profile_partial"
   ],
   "note": "the source object is always the node profile"
  },
  {
   "property": "C44",
   "status": "proved",
   "theorems": [
    "Uecho.Props.C44_tids_distinct"
   ],
   "note": ""
  },
  {
   "property": "C45",
   "status": "partial",
   "theorems": [
    "Uecho.Props.C45_posts_partial",
    "Uecho.Props.C45_race_violated",
    "Uecho.Props.C45_post_race_violated"
   ],
   "note": "distinct for posts among themselves; two sending threads, or a post and a sending thread, can use the same TID"
  },
  {
   "property": "C46",
   "status": "partial",
   "theorems": [
    "Uecho.Props.C46_response_partial",
    "Uecho.Props.C46_delivery_partial",
    "Uecho.Props.C46_listener_models_agree",
    "Uecho.Props.C46_stale_response_violated"
   ],
   "note": "proved if the listener is not interrupted and there are no spurious wake-ups; a listener that is interrupted between its check and its copy hands an old response to the next post"
  },
  {
   "property": "C47",
   "status": "partial",
   "theorems": [
    "Uecho.Props.C47_any_sender_violated",
    "Uecho.Props.C47_spurious_violated"
   ],
   "note": "violated for every message with the TID of the request and another ESV, and by a spurious wake-up"
  },
  {
   "property": "C48",
   "status": "partial",
   "theorems": [
    "Uecho.Props.C48_in_time_partial",
    "Uecho.Props.C48_lost_wakeup_violated"
   ],
   "note": "proved from the moment the thread waits; a response between sending and waiting is lost"
  },
  {
   "property": "C49",
   "status": "partial",
   "theorems": [
    "Uecho.Props.C49_returned_untouched_partial",
    "Uecho.Props.C49_send_failure_violated",
    "Uecho.Props.C49_use_after_free_violated",
    "Uecho.Props.C49_race_violated"
   ],
   "note": "violated after a refused send and by an interrupted listener"
  },
  {
   "property": "C50",
   "status": "proved",
   "theorems": [
    "Uecho.Props.C50_serialised"
   ],
   "note": ""
  },
  {
   "property": "C51",
   "status": "proved",
   "theorems": [
    "Uecho.Props.C51_table_duplicate_free",
    "Uecho.Props.C51_only_grows",
    "Uecho.Props.C51_second_list_no_effect"
   ],
   "note": ""
  },
  {
   "property": "C52",
   "status": "proved",
   "theorems": [
    "Uecho.Props.C52_listed_instances",
    "Uecho.Props.C52_nothing_else"
   ],
   "note": ""
  },
  {
   "property": "C53",
   "status": "partial",
   "theorems": [
    "Uecho.Props.C53_cache_partial",
    "Uecho.Props.C53_maps_rebuilt_violated",
    "Uecho.Props.C53_instance_list_violated"
   ],
   "note": "a report of a property that is new to the controller recomputes the cached property maps; the reported 0xD6 of a search answer is not cached"
  },
  {
   "property": "C54",
   "status": "partial",
   "theorems": [
    "Uecho.Props.C54_search_status",
    "Uecho.Props.C54_node_status",
    "Uecho.Props.C54_ignored",
    "Uecho.Props.C54_updated_iff_changed_partial",
    "Uecho.Props.C54_notification_responded_violated",
    "Uecho.Props.C54_setc_error_not_responded_violated",
    "Uecho.Props.C54_search_notification_violated",
    "Uecho.Props.C54_new_empty_property_violated",
    "Uecho.Props.C54_flip_violated"
   ],
   "note": "exact status calls proved; they differ from the claim in the five ways stated"
  },
  {
   "property": "C55",
   "status": "partial",
   "theorems": [
    "Uecho.Props.C55_disable_partial",
    "Uecho.Props.C55_disable_enables_violated",
    "Uecho.Props.C55_enable"
   ],
   "note": "disabling toggles: an option that is not enabled becomes enabled"
  },
  {
   "property": "C56",
   "status": "proved",
   "theorems": [
    "Uecho.Props.C56_list_is_sequence",
    "Uecho.Props.C56_linked"
   ],
   "note": "size: fewer than 2^31 elements"
  },
  {
   "property": "C57",
   "status": "partial",
   "theorems": [
    "Uecho.Props.C57_terminated_partial",
    "Uecho.Props.C57_null_pointer_violated",
    "Uecho.Props.C57_self_violated"
   ],
   "note": "proved for all histories whose arguments are not the string itself; uecho_string_setpointer with NULL and a non-zero length, and passing the own value of a string to its setter, are refuted"
  },
  {
   "property": "C58",
   "status": "partial",
   "theorems": [
    "Uecho.Props.C58_trace_partial",
    "Uecho.Props.C58_overflow_violated",
    "Uecho.Props.C58_threshold_violated"
   ],
   "note": "small datagrams proved safe; every datagram of 112 bytes or more overruns the buffer"
  },
  {
   "property": "C59",
   "status": "proved",
   "theorems": [
    "Uecho.Props.C59_write",
    "Uecho.Props.C59_extremes"
   ],
   "note": ""
  },
  {
   "property": "C60",
   "status": "partial",
   "theorems": [
    "Uecho.Props.C60_once_in_order",
    "Uecho.Props.C60_receivers",
    "Uecho.Props.C60_late_observer_violated"
   ],
   "note": "proved for observers registered before start; an observer registered later is not called"
  },
  {
   "property": "C61",
   "status": "proved",
   "theorems": [
    "Uecho.Props.C61_codes",
    "Uecho.Props.C61_lookup"
   ],
   "note": "whole table, generated from the C file"
  },
  {
   "property": "C62",
   "status": "partial",
   "theorems": [
    "Uecho.Props.C62_announce_partial",
    "Uecho.Props.C62_failure",
    "Uecho.Props.C62_order",
    "Uecho.Props.C62_stopped_violated"
   ],
   "note": "a stopped server reports an announcement as sent"
  },
  {
   "property": "C63",
   "status": "partial",
   "theorems": [
    "Uecho.Props.C63_no_new_call_partial",
    "Uecho.Props.C63_clean_stop_partial",
    "Uecho.Props.C63_drain_partial",
    "Uecho.Props.C63_handler_running_violated",
    "Uecho.Props.C63_use_after_free_violated"
   ],
   "note": "stop does not wait for the thread"
  },
  {
   "property": "C64",
   "status": "proved",
   "theorems": [
    "Uecho.Props.C64_start_announces",
    "Uecho.Props.C64_start_announces_instances"
   ],
   "note": ""
  },
  {
   "property": "C65",
   "status": "partial",
   "theorems": [
    "Uecho.Props.C65_violated",
    "Uecho.Props.C65_update_partial"
   ],
   "note": "a history reading NULL is exhibited; exactly when a map rebuild is defined is proved"
  },
  {
   "property": "C66",
   "status": "partial",
   "theorems": [
    "Uecho.Props.C66_receive_safe_partial",
    "Uecho.Props.C66_null_handler_crashes_violated",
    "Uecho.Props.C66_long_datagram_violated"
   ],
   "note": "safe unless a NULL handler has been registered, which the API accepts; then a datagram naming that property is a call through NULL; with the trace of the receive loop every datagram of 112 bytes or more is undefined"
  },
  {
   "property": "C67",
   "status": "partial",
   "theorems": [
    "Uecho.Props.C67_write_response_data_partial",
    "Uecho.Props.C67_seti_response_empty_violated"
   ],
   "note": "proved for 0x61 (and the set section of 0x6E, C38); the response to 0x60 never carries data"
  },
  {
   "property": "C68",
   "status": "partial",
   "theorems": [
    "Uecho.Props.C68_start_announcement_ignored_violated"
   ],
   "note": "violated for every controller: only 0xD6 answers add nodes"
  },
  {
   "property": "C69",
   "status": "partial",
   "theorems": [
    "Uecho.Props.C69_search_request",
    "Uecho.Props.C69_search_discovers_partial",
    "Uecho.Props.C69_search_again_partial",
    "Uecho.Props.C69_many_instances_violated"
   ],
   "note": "at most 84 instances; from 85 on the controller never lists all instances"
  },
  {
   "property": "C70",
   "status": "partial",
   "theorems": [
    "Uecho.Props.C70_failed_read_erases_violated"
   ],
   "note": "violated for every cached property"
  },
  {
   "property": "C71",
   "status": "partial",
   "theorems": [
    "Uecho.Props.C71_receive_safe_partial",
    "Uecho.Props.C71_long_datagram_violated"
   ],
   "note": "excludes NULL handlers (see C66) and post pointers to freed messages (see C49)"
  },
  {
   "property": "C72",
   "status": "partial",
   "theorems": [
    "Uecho.Props.C72_search_object_violated"
   ],
   "note": "violated: the parameter is one byte"
  },
  {
   "property": "C73",
   "status": "partial",
   "theorems": [
    "Uecho.Props.C73_bounds_partial",
    "Uecho.Props.C73_short_wait_violated"
   ],
   "note": "up to two seconds are missing; times below one second are zero"
  },
  {
   "property": "C74",
   "status": "partial",
   "theorems": [
    "Uecho.Props.C46_delivery_partial",
    "Uecho.Props.C74_setget_response_violated"
   ],
   "note": "proved for plain frames; the sections of a SetGet response are lost"
  },
  {
   "property": "C75",
   "status": "proved",
   "theorems": [
    "Uecho.Props.C75_no_deadlock",
    "Uecho.Props.C75_post_returns"
   ],
   "note": "for executions without undefined behaviour (C49)"
  },
  {
   "property": "C76",
   "status": "proved",
   "theorems": [
    "Uecho.Props.C76_local_node"
   ],
   "note": ""
  },
  {
   "property": "C77",
   "status": "partial",
   "theorems": [
    "Uecho.Props.C77_readline_partial",
    "Uecho.Props.C77_small_buffer_violated"
   ],
   "note": "buffers of one or zero bytes are refuted"
  },
  {
   "property": "C78",
   "status": "proved",
   "theorems": [
    "Uecho.Props.C78_start",
    "Uecho.Props.C78_new"
   ],
   "note": ""
  },
  {
   "property": "C79",
   "status": "proved",
   "theorems": [
    "Uecho.Props.C79_response",
    "Uecho.Props.C79_attempts"
   ],
   "note": ""
  },
  {
   "property": "C80",
   "status": "partial",
   "theorems": [
    "Uecho.Props.C80_rules_partial",
    "Uecho.Props.C80_conditional_violated"
   ],
   "note": "rules required_c and required_o give no access"
  },
  {
   "property": "C81",
   "status": "partial",
   "theorems": [
    "Uecho.Props.C81_class_property_partial",
    "Uecho.Props.C80_rules_partial",
    "Uecho.Props.C81_super_class_wins_violated",
    "Uecho.Props.C81_operation_status_violated"
   ],
   "note": "for codes that the super class also has the rules of the class are lost"
  },
  {
   "property": "C82",
   "status": "partial",
   "theorems": [
    "Uecho.Props.C82_maps_partial",
    "Uecho.Props.C82_get_map_violated",
    "Uecho.Props.C82_node_profile_violated"
   ],
   "note": "codes from 0xC0 on are missing in the Get map of every standard object"
  },
  {
   "property": "C83",
   "status": "proved",
   "theorems": [
    "Uecho.Props.C83_manufacturers"
   ],
   "note": ""
  },
  {
   "property": "C84",
   "status": "proved",
   "theorems": [
    "Uecho.Props.C84_remote_read"
   ],
   "note": ""
  },
  {
   "property": "C85",
   "status": "proved",
   "theorems": [
    "Uecho.Props.C85_remote_write"
   ],
   "note": ""
  },
  {
   "property": "C86",
   "status": "partial",
   "theorems": [
    "Uecho.Props.C86_device_state",
    "Uecho.Props.C86_profile_status",
    "Uecho.Props.C86_profile_maker_violated"
   ],
   "note": "proved for devices; a profile returns its manufacturer code as 0 or 1, because the getter of the profile class returns bool"
  },
  {
   "property": "C87",
   "status": "partial",
   "theorems": [
    "Uecho.Props.C87_getters_say",
    "Uecho.Props.C87_getters_defined_partial",
    "Uecho.Props.C87_remote_write_violated"
   ],
   "note": "all getters but that of the manufacturer code; that one has undefined behaviour after a remote write of five or more bytes"
  },
  {
   "property": "C88",
   "status": "partial",
   "theorems": [
    "Uecho.Props.C88_node_partial",
    "Uecho.Props.C88_controller_partial",
    "Uecho.Props.C88_unnamed_sender_violated",
    "Uecho.Props.C66_long_datagram_violated",
    "Uecho.Props.C71_long_datagram_violated"
   ],
   "note": "proved up to 110 bytes with IPv4 addresses; from 112 bytes on the trace overruns its buffer, and a sender without a text address makes it read an uninitialised array"
  },
  {
   "property": "C89",
   "status": "partial",
   "theorems": [
    "Uecho.Props.C89_send_partial",
    "Uecho.Props.C89_start_violated"
   ],
   "note": "defined exactly up to 110 bytes (IPv4); a node with 33 to 84 instances cannot be started"
  },
  {
   "property": "C90",
   "status": "partial",
   "theorems": [
    "Uecho.Props.C90_buffer_partial",
    "Uecho.Props.C90_long_frame_violated"
   ],
   "note": "up to 512 bytes; longer frames are dropped, even with the trace left out"
  },
  {
   "property": "C91",
   "status": "partial",
   "theorems": [
    "Uecho.Props.C91_loop_partial",
    "Uecho.Props.C91_error_ends_receiver_violated"
   ],
   "note": "without errors; the first error of recvfrom ends the receiver"
  },
  {
   "property": "C92",
   "status": "partial",
   "theorems": [
    "Uecho.Props.C92_locked_partial",
    "Uecho.Props.C92_use_after_free_violated",
    "Uecho.Props.C92_double_free_violated",
    "Uecho.Props.C92_torn_read_violated"
   ],
   "note": "proved when the application serialises writes; the library has no lock, and unsynchronised use frees twice, reads freed memory or reads no data"
  },
  {
   "property": "C93",
   "status": "partial",
   "theorems": [
    "Uecho.Props.C93_one_adder_partial",
    "Uecho.Props.C93_two_adders_violated"
   ],
   "note": "proved for one adding thread and any number of iterating ones; two adding threads lose a node"
  },
  {
   "property": "C94",
   "status": "partial",
   "theorems": [
    "Uecho.Props.C94_listed_once_partial",
    "Uecho.Props.C94_listed_twice_violated"
   ],
   "note": "proved when no two answers from one address are handled at once; otherwise the node is listed twice"
  },
  {
   "property": "C95",
   "status": "partial",
   "theorems": [
    "Uecho.Props.C95_complete_partial",
    "Uecho.Props.C95_incomplete_violated"
   ],
   "note": "proved when the first call returns before another begins; otherwise a call can return an empty database"
  },
  {
   "property": "C96",
   "status": "proved",
   "theorems": [
    "Uecho.Props.C96_first",
    "Uecho.Props.C96_last",
    "Uecho.Props.C96_null"
   ],
   "note": ""
  },
  {
   "property": "C97",
   "status": "partial",
   "theorems": [
    "Uecho.Props.C97_trim",
    "Uecho.Props.C97_white_partial",
    "Uecho.Props.C97_white_violated"
   ],
   "note": "uecho_strtrim proved in full; uecho_strtrimwhite only for white space at the end, otherwise it loses characters"
  },
  {
   "property": "C98",
   "status": "partial",
   "theorems": [
    "Uecho.Props.C98_tokens_partial",
    "Uecho.Props.C98_rest_partial",
    "Uecho.Props.C98_empty_violated",
    "Uecho.Props.C98_no_rest_violated"
   ],
   "note": "proved for texts that are not empty; the empty text is read behind its end, and the rest without a next token is written through NULL"
  },
  {
   "property": "C99",
   "status": "partial",
   "theorems": [
    "Uecho.Props.C99_replace_partial",
    "Uecho.Props.C99_empty_result_violated",
    "Uecho.Props.C99_order_violated",
    "Uecho.Props.C99_empty_pattern_violated"
   ],
   "note": "proved for patterns none of which is empty or begins another and for results that are not empty"
  },
  {
   "property": "C100",
   "status": "partial",
   "theorems": [
    "Uecho.Props.C100_append_partial",
    "Uecho.Props.C100_unterminated_violated"
   ],
   "note": "proved if the added text is shorter than the number; otherwise no terminator is written"
  },
  {
   "property": "C101",
   "status": "partial",
   "theorems": [
    "Uecho.Props.C101_shown_was_held_partial",
    "Uecho.Props.C101_announcements_lost_violated",
    "Uecho.Props.C101_announcement_misfiled_violated"
   ],
   "note": "proved for values of at most 255 bytes, except the property maps, the node profile and empty data; announcements leave with the node profile as source, so the value of a device is shown as a value of the node profile and the device keeps the old one"
  },
  {
   "property": "C102",
   "status": "partial",
   "theorems": [
    "Uecho.Props.C102_listed_existed_partial",
    "Uecho.Props.C102_phantom_violated"
   ],
   "note": "proved if no device has an own property 0xD6 and nobody meddles with the one of the node profile; otherwise an answer or announcement of a device property 0xD6 makes the controller list objects that never existed"
  },
  {
   "property": "C103",
   "status": "partial",
   "theorems": [
    "Uecho.Props.C103_send",
    "Uecho.Props.C103_start",
    "Uecho.Props.C103_granted",
    "Uecho.Props.C103_not_joined",
    "Uecho.Props.C103_balanced_partial",
    "Uecho.Props.C103_closed_partial",
    "Uecho.Props.C103_descriptor_zero_violated"
   ],
   "note": "proved if the application has descriptor 0 open (a socket with descriptor 0 is taken for an unbound one and never closed)"
  },
  {
   "property": "C104",
   "status": "partial",
   "theorems": [
    "Uecho.Props.C104_freed_partial",
    "Uecho.Props.C104_no_descriptor_violated"
   ],
   "note": "proved if socket() and setsockopt() do not fail; if they fail the list is lost, once for each start"
  },
  {
   "property": "C105",
   "status": "partial",
   "theorems": [
    "Uecho.Props.C105_ignored",
    "Uecho.Props.C105_restored_violated"
   ],
   "note": "SIGPIPE is ignored from the first start on; it stays so after the stop, because the socket count is raised at every lookup and never returns to 0"
  },
  {
   "property": "C106",
   "status": "partial",
   "theorems": [
    "Uecho.Props.C106_defined_partial",
    "Uecho.Props.C106_overflow_violated"
   ],
   "note": "proved for fewer than about 2^31/(4m+3) events with m interfaces; 2^31 sends overflow a signed count"
  },
  {
   "property": "C107",
   "status": "partial",
   "theorems": [
    "Uecho.Props.C107_calls_memory_safe",
    "Uecho.Props.C107_no_leak",
    "Uecho.Props.C107_setopc_leaks",
    "Uecho.Props.C107_shared_property_violated",
    "Uecho.Props.C107_property_256_violated"
   ],
   "note": "proved for the rules of use in Spec/Heap (at most 255 properties per array, setopc only on an empty array, a property is in one message); each of the three rules is needed: without it a leak, a double free, a write outside the block"
  },
  {
   "property": "C108",
   "status": "partial",
   "theorems": [
    "Uecho.Props.C108_histories_memory_safe",
    "Uecho.Props.C108_delete_running_node_violated",
    "Uecho.Props.C108_handler_replaces_itself_violated",
    "Uecho.Props.C108_handler_replaces_property_violated",
    "Uecho.Props.C108_failed_post_violated",
    "Uecho.Props.C108_added_twice_violated",
    "Uecho.Props.C108_code_after_clear_violated"
   ],
   "note": "proved for all histories that keep the rules of use in Spec/HeapApp, datagrams and calls one after the other; each rule is needed: without it memory is used after it was freed"
  },
  {
   "property": "C109",
   "status": "proved",
   "theorems": [
    "Uecho.Props.C109_no_leak"
   ],
   "note": "for the histories of C108"
  },
  {
   "property": "C110",
   "status": "proved",
   "theorems": [
    "Uecho.Props.C110_node_memory_bounded"
   ],
   "note": "for the states that the histories of C108 reach; the count is of blocks, of which each property datum has at most 255 bytes"
  },
  {
   "property": "C111",
   "status": "partial",
   "theorems": [
    "Uecho.Props.C111_one_node_per_address_partial",
    "Uecho.Props.C111_growth_partial",
    "Uecho.Props.C111_controller_memory_violated"
   ],
   "note": "fails: one node and its objects are stored for each source address that announces itself, and nothing removes them; what holds is that there is at most one node for each address, and that a datagram adds at most one node and 85 objects"
  },
  {
   "property": "C112",
   "status": "proved",
   "theorems": [
    "Uecho.Props.C112_interfaces",
    "Uecho.Props.C112_address_text"
   ],
   "note": ""
  },
  {
   "property": "C113",
   "status": "partial",
   "theorems": [
    "Uecho.Props.C113_local_address_partial",
    "Uecho.Props.C113_ipv6_violated"
   ],
   "note": "fails on hosts with an IPv6 address: its entry matches every sender, and the local address is 0.0.0.0; holds if all entries in use are IPv4"
  },
  {
   "property": "C114",
   "status": "partial",
   "theorems": [
    "Uecho.Props.C114_is_ipv6_partial",
    "Uecho.Props.C114_leading_colon_violated",
    "Uecho.Props.C114_scope_defined",
    "Uecho.Props.C114_scope",
    "Uecho.Props.C114_long_scope_violated"
   ],
   "note": "fails for texts that begin with a colon, and for scope numbers of more than 8 digits"
  },
  {
   "property": "C115",
   "status": "partial",
   "theorems": [
    "Uecho.Props.C115_property_partial",
    "Uecho.Props.C115_object_partial",
    "Uecho.Props.C115_short_violated",
    "Uecho.Props.C115_overflow_violated"
   ],
   "note": "fails below 20 milliseconds (no wait at all) and from 85899360 milliseconds on (the wait ends 23 hours early or more); in between up to 19 milliseconds are missing"
  },
  {
   "property": "C116",
   "status": "proved",
   "theorems": [
    "Uecho.Props.C116_random",
    "Uecho.Props.C116_waitrandom"
   ],
   "note": "floating-point arithmetic is the exact result rounded, by any rounding that keeps the order and the whole numbers"
  },
  {
   "property": "C117",
   "status": "partial",
   "theorems": [
    "Uecho.Props.C117_printed",
    "Uecho.Props.C117_trace_partial",
    "Uecho.Props.C117_error_violated"
   ],
   "note": "holds for uecho_log_output; fails for datagrams and messages that could not be parsed: they are logged as debug messages. For traces: datagrams that fit the trace buffer (C58)"
  },
  {
   "property": "C118",
   "status": "partial",
   "theorems": [
    "Uecho.Props.C118_order_partial",
    "Uecho.Props.C118_null_violated",
    "Uecho.Props.C118_first_characters",
    "Uecho.Props.C118_equal",
    "Uecho.Props.C118_find",
    "Uecho.Props.C118_length",
    "Uecho.Props.C118_null",
    "Uecho.Props.C118_case_order"
   ],
   "note": "fails for NULL, which is less than everything on the left and on the right"
  },
  {
   "property": "C119",
   "status": "partial",
   "theorems": [
    "Uecho.Props.C119_int_partial",
    "Uecho.Props.C119_long_partial",
    "Uecho.Props.C119_size_partial",
    "Uecho.Props.C119_size_violated",
    "Uecho.Props.C119_small_buffer_violated",
    "Uecho.Props.C119_set_text"
   ],
   "note": "fails for small buffers (their size is not used) and for sizes from 2^63 on (shown as negative)"
  },
  {
   "property": "C120",
   "status": "partial",
   "theorems": [
    "Uecho.Props.C120_dictionary_partial",
    "Uecho.Props.C120_add_twice_violated",
    "Uecho.Props.C120_code_changed_violated"
   ],
   "note": "elements are added that are in no list and keep their code while they are in one; otherwise it fails"
  },
  {
   "property": "C121",
   "status": "partial",
   "theorems": [
    "Uecho.Props.C121_database_partial",
    "Uecho.Props.C121_one_thread_partial",
    "Uecho.Props.C121_race_violated",
    "Uecho.Props.C121_unfinished_violated",
    "Uecho.Props.C121_exit_violated"
   ],
   "note": "fails if two threads make the first call at the same time (double free at the end, or an empty database), and if a thread still runs when the program ends (freed memory is used)"
  },
  {
   "property": "C122",
   "status": "partial",
   "theorems": [
    "Uecho.Props.C122_start_reports",
    "Uecho.Props.C122_stop_ends",
    "Uecho.Props.C122_is_running",
    "Uecho.Props.C122_one_action_partial",
    "Uecho.Props.C122_restart_violated",
    "Uecho.Props.C122_list_violated",
    "Uecho.Props.C122_list_partial"
   ],
   "note": "fails for a restart before the action looked at the flag (two threads run it), and for the result of uecho_threadlist_start"
  },
  {
   "property": "C123",
   "status": "partial",
   "theorems": [
    "Uecho.Props.C123_balanced_partial",
    "Uecho.Props.C123_accept",
    "Uecho.Props.C123_connect",
    "Uecho.Props.C123_accept_violated",
    "Uecho.Props.C123_skip"
   ],
   "note": "fails for accepting into a socket that has a connection; the descriptor 0 is in use"
  },
  {
   "property": "C124",
   "status": "proved",
   "theorems": [
    "Uecho.Props.C124_last_value",
    "Uecho.Props.C124_kind"
   ],
   "note": "values that do not fit: C06"
  },
  {
   "property": "C125",
   "status": "partial",
   "theorems": [
    "Uecho.Props.C125_calls_partial",
    "Uecho.Props.C125_reports_partial",
    "Uecho.Props.C125_enough_memory",
    "Uecho.Props.C125_parse_violated",
    "Uecho.Props.C125_arrays_violated",
    "Uecho.Props.C125_append_leaks_violated",
    "Uecho.Props.C125_append_violated",
    "Uecho.Props.C125_integer_violated",
    "Uecho.Props.C125_copies_violated",
    "Uecho.Props.C125_bytes_violated"
   ],
   "note": "holds for refused structures, texts and data without uecho_property_adddata; arrays of messages and bytes to be sent are used unchecked, adddata forgets its block, setintegerdata and copies report success without effect"
  },
  {
   "property": "C126",
   "status": "proved",
   "theorems": [
    "Uecho.Props.C126_last_value",
    "Uecho.Props.C126_attributes"
   ],
   "note": ""
  },
  {
   "property": "C127",
   "status": "partial",
   "theorems": [
    "Uecho.Props.C127_equal",
    "Uecho.Props.C127_equivalence",
    "Uecho.Props.C127_data_equal",
    "Uecho.Props.C127_copy_partial",
    "Uecho.Props.C127_copy_violated"
   ],
   "note": "the type is not copied"
  },
  {
   "property": "C128",
   "status": "proved",
   "theorems": [
    "Uecho.Props.C128_last_handler"
   ],
   "note": "a handler for reading replaces one for writing for SetGet; C40 says that handlers for SetGet are not called"
  },
  {
   "property": "C129",
   "status": "partial",
   "theorems": [
    "Uecho.Props.C129_values",
    "Uecho.Props.C129_size_partial",
    "Uecho.Props.C129_size_violated"
   ],
   "note": "the size of 256 bytes or more is given modulo 256"
  },
  {
   "property": "C130",
   "status": "proved",
   "theorems": [
    "Uecho.Props.C130_search",
    "Uecho.Props.C130_search_new",
    "Uecho.Props.C130_response_required",
    "Uecho.Props.C130_own_object"
   ],
   "note": ""
  },
  {
   "property": "C131",
   "status": "proved",
   "theorems": [
    "Uecho.Props.C131_object_codes",
    "Uecho.Props.C131_object_fields",
    "Uecho.Props.C131_class_codes",
    "Uecho.Props.C131_property_count",
    "Uecho.Props.C131_object_count"
   ],
   "note": ""
  },
  {
   "property": "C132",
   "status": "partial",
   "theorems": [
    "Uecho.Props.C132_acknowledged_partial",
    "Uecho.Props.C132_data_violated",
    "Uecho.Props.C132_unknown_violated",
    "Uecho.Props.C132_several_violated"
   ],
   "note": "acknowledged only if the frame has one property, which the receiver itself has and accepts; the answer carries the data of the receiver"
  },
  {
   "property": "C133",
   "status": "partial",
   "theorems": [
    "Uecho.Props.C133_named_instance_partial",
    "Uecho.Props.C133_all_instances_violated"
   ],
   "note": "a request to instance code 0 is ignored"
  },
  {
   "property": "C134",
   "status": "proved",
   "theorems": [
    "Uecho.Props.C134_interface",
    "Uecho.Props.C134_any_interface",
    "Uecho.Props.C134_datagram",
    "Uecho.Props.C134_manufacturer",
    "Uecho.Props.C134_enumeration",
    "Uecho.Props.C134_property_observer",
    "Uecho.Props.C134_message_observer"
   ],
   "note": "the service of a new observer of properties is not initialised, so it cannot be read before it was set"
  },
  {
   "property": "C135",
   "status": "partial",
   "theorems": [
    "Uecho.Props.C135_copy_partial",
    "Uecho.Props.C135_copy_violated",
    "Uecho.Props.C135_self_violated"
   ],
   "note": "addresses that the source lacks are kept from before; a copy to itself reads freed memory"
  },
  {
   "property": "C136",
   "status": "partial",
   "theorems": [
    "Uecho.Props.C136_start_partial",
    "Uecho.Props.C136_stop",
    "Uecho.Props.C136_start_list_partial",
    "Uecho.Props.C136_restart_violated",
    "Uecho.Props.C136_stopped_violated"
   ],
   "note": "proved for receivers that are not running; a running one is closed by a second start, which fails, and a list says it is running as long as it is not empty"
  },
  {
   "property": "C137",
   "status": "partial",
   "theorems": [
    "Uecho.Props.C137_new_node_partial",
    "Uecho.Props.C137_set_id",
    "Uecho.Props.C137_format_violated",
    "Uecho.Props.C137_maker_violated"
   ],
   "note": "the version names no message format, and the identification number has random bytes instead of the code of the maker"
  },
  {
   "property": "C138",
   "status": "proved",
   "theorems": [
    "Uecho.Props.C138_node_fields",
    "Uecho.Props.C138_next_tid",
    "Uecho.Props.C138_first_tid"
   ],
   "note": ""
  },
  {
   "property": "C139",
   "status": "proved",
   "theorems": [
    "Uecho.Props.C139_node_maker"
   ],
   "note": ""
  },
  {
   "property": "C140",
   "status": "proved",
   "theorems": [
    "Uecho.Props.C140_fields"
   ],
   "note": ""
  },
  {
   "property": "C141",
   "status": "partial",
   "theorems": [
    "Uecho.Props.C141_switch_partial",
    "Uecho.Props.C141_enable_violated",
    "Uecho.Props.C141_late_violated",
    "Uecho.Props.C141_stop"
   ],
   "note": "proved if the receivers are enabled only while they are disabled; enabling what is enabled disables it, and a switch takes effect with the next start only"
  },
  {
   "property": "C142",
   "status": "proved",
   "theorems": [
    "Uecho.Props.C142_to_object",
    "Uecho.Props.C142_to_node",
    "Uecho.Props.C142_lookup"
   ],
   "note": "the local node still has its profile object"
  },
  {
   "property": "C143",
   "status": "proved",
   "theorems": [
    "Uecho.Props.C143_message_listener",
    "Uecho.Props.C143_node_listener",
    "Uecho.Props.C143_post",
    "Uecho.Props.C143_start",
    "Uecho.Props.C143_no_post"
   ],
   "note": "datagrams are handled one after the other; interrupted listeners are in C46 and C49"
  },
  {
   "property": "C144",
   "status": "proved",
   "theorems": [
    "Uecho.Props.C144_controller_tids"
   ],
   "note": "one message after the other; concurrent senders are C45"
  },
  {
   "property": "C145",
   "status": "proved",
   "theorems": [
    "Uecho.Props.C145_called",
    "Uecho.Props.C145_node_listener",
    "Uecho.Props.C145_object",
    "Uecho.Props.C145_new"
   ],
   "note": ""
  },
  {
   "property": "C146",
   "status": "partial",
   "theorems": [
    "Uecho.Props.C146_object_partial",
    "Uecho.Props.C146_reports_partial",
    "Uecho.Props.C146_enough_memory",
    "Uecho.Props.C146_map_violated",
    "Uecho.Props.C146_handlers_violated",
    "Uecho.Props.C146_data_violated",
    "Uecho.Props.C146_replace_violated",
    "Uecho.Props.C146_registered",
    "Uecho.Props.C146_node_violated",
    "Uecho.Props.C146_deaf_violated",
    "Uecho.Props.C146_lists_violated",
    "Uecho.Props.C146_receiver_partial",
    "Uecho.Props.C146_receiver_violated"
   ],
   "note": "proved for properties that can be read and with the requests that the code checks; refuted: setting a property without memory for its map reads through NULL, an object without a handler list is made and each handler leaks, data are set empty with success, a handler that cannot be replaced is gone, a node without server and a controller without node are made through NULL, a node that cannot be registered with its server is made and hears nothing, the lists of classes and instances are written through NULL when one of their requests is refused, a receiver loses a datagram and a packet without memory for a message and ends without memory for a packet"
  },
  {
   "property": "C147",
   "status": "partial",
   "theorems": [
    "Uecho.Props.C147_texts_partial",
    "Uecho.Props.C147_data_partial",
    "Uecho.Props.C147_own_text_violated",
    "Uecho.Props.C147_own_data_violated",
    "Uecho.Props.C147_set_self_violated",
    "Uecho.Props.C147_equals_self_violated"
   ],
   "note": "proved if the value lies in another block than the one that is replaced; refuted for a value of its own (freed before it is copied), for comparing a message with itself (reads freed memory) and for setting it to itself (loses its properties and addresses)"
  },
  {
   "property": "C148",
   "status": "partial",
   "theorems": [
    "Uecho.Props.C148_runs",
    "Uecho.Props.C148_power_partial",
    "Uecho.Props.C148_written",
    "Uecho.Props.C148_refused",
    "Uecho.Props.C148_values_violated",
    "Uecho.Props.C148_announced_violated",
    "Uecho.Props.C148_maker_violated",
    "Uecho.Props.C148_map_violated"
   ],
   "note": "proved: it starts, no input is undefined behaviour, the power is the last single byte written and other lengths are refused; refuted: bytes other than on and off are stored, a change is not announced, the maker code given with -m does not reach the light, and its Get map counts each property twice"
  },
  {
   "property": "C149",
   "status": "partial",
   "theorems": [
    "Uecho.Props.C149_request_partial",
    "Uecho.Props.C149_safe_partial",
    "Uecho.Props.C149_printed",
    "Uecho.Props.C149_object_violated",
    "Uecho.Props.C149_setget_violated",
    "Uecho.Props.C149_incomplete_violated",
    "Uecho.Props.C149_repeated_violated",
    "Uecho.Props.C149_many_violated",
    "Uecho.Props.C149_arguments_violated",
    "Uecho.Props.C149_nothex_violated",
    "Uecho.Props.C149_prefix_violated"
   ],
   "note": "proved for requests with one list of up to 255 different properties, and that other texts of usual length are defined; refuted: a request for an object that is not there goes to 000000, SetGet loses the properties, data that is cut off or not hexadecimal is not refused, a code that repeats is sent once, 256 properties are undefined, further arguments are ignored"
  },
  {
   "property": "C150",
   "status": "partial",
   "theorems": [
    "Uecho.Props.C150_standard_partial",
    "Uecho.Props.C150_required_named",
    "Uecho.Props.C150_maps_violated",
    "Uecho.Props.C150_unknown_violated"
   ],
   "note": "everything but the attributes of the property maps, which may become \"readable\" only; objects of unknown classes are called \"Super class\""
  },
  {
   "property": "C151",
   "status": "partial",
   "theorems": [
    "Uecho.Props.C151_set_by_application_partial",
    "Uecho.Props.C151_own_threads_partial",
    "Uecho.Props.C151_early_violated",
    "Uecho.Props.C151_quit_violated",
    "Uecho.Props.C151_quit_ignored_violated",
    "Uecho.Props.C151_receives_partial",
    "Uecho.Props.C151_deaf_violated",
    "Uecho.Props.C151_restarted"
   ],
   "note": "all signals but SIGQUIT, on threads that have begun; SIGQUIT is taken over for good and ends receivers"
  },
  {
   "property": "C152",
   "status": "partial",
   "theorems": [
    "Uecho.Props.C152_asks_partial",
    "Uecho.Props.C152_values",
    "Uecho.Props.C152_live",
    "Uecho.Props.C152_ends_partial",
    "Uecho.Props.C152_defined_partial",
    "Uecho.Props.C152_objects_defined",
    "Uecho.Props.C152_maker_violated",
    "Uecho.Props.C152_maps_violated"
   ],
   "note": "requests but for the property maps, and the printed values; undefined for manufacturer codes of more than three bytes"
  },
  {
   "property": "C153",
   "status": "partial",
   "theorems": [
    "Uecho.Props.C153_defined_partial",
    "Uecho.Props.C153_stop_ends_partial",
    "Uecho.Props.C153_ended_violated",
    "Uecho.Props.C153_twice_violated",
    "Uecho.Props.C153_cut_partial",
    "Uecho.Props.C153_cut_violated"
   ],
   "note": "for threads started only when idle whose action does not end by itself; undefined if it did; a list addition cut before its last assignment loses everything added later"
  },
  {
   "property": "C154",
   "status": "partial",
   "theorems": [
    "Uecho.Props.C154_mutex",
    "Uecho.Props.C154_result",
    "Uecho.Props.C154_signals",
    "Uecho.Props.C154_signalled_partial",
    "Uecho.Props.C154_stale_violated",
    "Uecho.Props.C154_zero_violated"
   ],
   "note": "true without a signal if one was kept from before; zero milliseconds are for ever"
  },
  {
   "property": "C155",
   "status": "partial",
   "theorems": [
    "Uecho.Props.C155_asks_partial",
    "Uecho.Props.C155_values",
    "Uecho.Props.C155_live",
    "Uecho.Props.C155_defined",
    "Uecho.Props.C155_ends",
    "Uecho.Props.C155_nobody",
    "Uecho.Props.C155_maps_violated",
    "Uecho.Props.C155_negative_violated"
   ],
   "note": "for counts that are not negative; of the property maps some are not asked for; ends if from some request on nothing arrives; a negative count becomes more than 2^63"
  },
  {
   "property": "C156",
   "status": "partial",
   "theorems": [
    "Uecho.Props.C156_interfaces_partial",
    "Uecho.Props.C156_select_partial",
    "Uecho.Props.C156_loopback_violated",
    "Uecho.Props.C156_reversed_violated",
    "Uecho.Props.C156_select_violated"
   ],
   "note": "for hosts without the addresses 127.0.0.1 and 1.0.0.127; the sender is not looked at"
  },
  {
   "property": "C157",
   "status": "partial",
   "theorems": [
    "Uecho.Props.C157_prints_partial",
    "Uecho.Props.C157_setget_violated",
    "Uecho.Props.C157_eof_violated"
   ],
   "note": "the properties of SetGet services are not shown; the end of the input and the key Q do not end the command"
  },
  {
   "property": "C158",
   "status": "partial",
   "theorems": [
    "Uecho.Props.C158_defined_partial",
    "Uecho.Props.C158_borrowed",
    "Uecho.Props.C158_freed_partial",
    "Uecho.Props.C158_response_violated",
    "Uecho.Props.C158_dangling_violated"
   ],
   "note": "the responses of posts are never freed; objects got from a message or controller do not keep it: using them after it is gone is undefined"
  },
  {
   "property": "C159",
   "status": "partial",
   "theorems": [
    "Uecho.Props.C159_lists",
    "Uecho.Props.C159_made",
    "Uecho.Props.C159_send",
    "Uecho.Props.C159_no_node",
    "Uecho.Props.C159_post_partial",
    "Uecho.Props.C159_setget_violated",
    "Uecho.Props.C159_observer",
    "Uecho.Props.C159_added",
    "Uecho.Props.C159_search_violated",
    "Uecho.Props.C159_announce_violated"
   ],
   "note": "responses to SetGet show nothing; search answers YES whatever happened; announceMessage takes a node and does not use it"
  },
  {
   "property": "C160",
   "status": "partial",
   "theorems": [
    "Uecho.Props.C160_launch",
    "Uecho.Props.C160_runs",
    "Uecho.Props.C160_told_partial",
    "Uecho.Props.C160_restart_partial",
    "Uecho.Props.C160_once",
    "Uecho.Props.C160_restart_violated",
    "Uecho.Props.C160_others",
    "Uecho.Props.C160_why",
    "Uecho.Props.C160_unblocked_violated"
   ],
   "note": "main blocks no signal before sigwait, so SIGTERM, SIGINT and SIGHUP end the process at once unless its parent blocked them; a restart that fails ends the program with success"
  },
  {
   "property": "C161",
   "status": "partial",
   "theorems": [
    "Uecho.Props.C161_reached",
    "Uecho.Props.C161_itself",
    "Uecho.Props.C161_named_partial",
    "Uecho.Props.C161_named_violated",
    "Uecho.Props.C161_loopback_violated",
    "Uecho.Props.C161_esp32"
   ],
   "note": "a node that has only point-to-point connections names the loopback address as its own, and none starts on a host that has only the loopback interface; IPv6 senders are C113"
  },
  {
   "property": "C162",
   "status": "proved",
   "theorems": [
    "Uecho.Props.C162_answer",
    "Uecho.Props.C162_shown",
    "Uecho.Props.C162_switched",
    "Uecho.Props.C162_switched_then_shown",
    "Uecho.Props.C162_refused",
    "Uecho.Props.C162_found",
    "Uecho.Props.C162_hidden"
   ],
   "note": "services with two lists of properties are C149 and C74 (violated there); the listener of the controller is not interrupted by its own thread (C46)"
  },
  {
   "property": "C163",
   "status": "partial",
   "theorems": [
    "Uecho.Props.C163_boot",
    "Uecho.Props.C163_lights_partial",
    "Uecho.Props.C163_once_violated",
    "Uecho.Props.C163_reconnect_violated"
   ],
   "note": "every address that the station gets starts another light; a station that loses its network never joins again"
  },
  {
   "property": "C164",
   "status": "partial",
   "theorems": [
    "Uecho.Props.C164_node_partial",
    "Uecho.Props.C164_controller_partial",
    "Uecho.Props.C164_loop_partial",
    "Uecho.Props.C164_senders",
    "Uecho.Props.C164_light",
    "Uecho.Props.C164_undefined_violated"
   ],
   "note": "datagrams of at most 110 bytes: longer ones overrun the buffer of the trace (C58); a sender that is not an IPv4 host is undefined behaviour"
  }
 ]
}