{
 "claims": [
  {
   "property": "C01",
   "status": "proved",
   "theorems": [
    "PyLisp.Props.checksum_range",
    "PyLisp.Props.checksum_closed_form",
    "PyLisp.Props.checksum_odd",
    "PyLisp.Props.checksum_self_verifying"
   ],
   "note": ""
  },
  {
   "property": "C02",
   "status": "proved",
   "theorems": [
    "PyLisp.Props.checksum_detects_word_change",
    "PyLisp.Props.checksum_word_order_irrelevant",
    "PyLisp.Props.checksum_detects_byte_change",
    "PyLisp.Props.checksum_zero_ambiguity"
   ],
   "note": ""
  },
  {
   "property": "C03",
   "status": "proved",
   "theorems": [
    "PyLisp.Props.afi_ip_round_trip",
    "PyLisp.Props.afi_none_round_trip",
    "PyLisp.Props.afi_net_round_trip",
    "PyLisp.Props.afi_ip_layout"
   ],
   "note": ""
  },
  {
   "property": "C04",
   "status": "proved",
   "theorems": [
    "PyLisp.Props.lcaf_round_trip",
    "PyLisp.Props.lcaf_instance_net_round_trip",
    "PyLisp.Props.lcaf_round_trip_exact",
    "PyLisp.Props.address_round_trip"
   ],
   "note": ""
  },
  {
   "property": "C05",
   "status": "proved",
   "theorems": [
    "PyLisp.Props.afi_prefix_exact",
    "PyLisp.Props.afi_prefix_accepts",
    "PyLisp.Props.afi_none_prefix"
   ],
   "note": ""
  },
  {
   "property": "C06",
   "status": "proved",
   "theorems": [
    "PyLisp.Props.afi_consumes_exactly",
    "PyLisp.Props.afi_no_truncation"
   ],
   "note": ""
  },
  {
   "property": "C07",
   "status": "proved",
   "theorems": [
    "PyLisp.Props.afi_total",
    "PyLisp.Props.control_total",
    "PyLisp.Props.packet_parsing_total",
    "PyLisp.Props.packet_parsing_unfolds"
   ],
   "note": ""
  },
  {
   "property": "C08",
   "status": "proved",
   "theorems": [
    "PyLisp.Props.ipv4_accepted_iff",
    "PyLisp.Props.ipv4_round_trip",
    "PyLisp.Props.ipv4_written",
    "PyLisp.Props.ipv4_round_trip_undecoded",
    "PyLisp.Props.ipv4_writable_iff"
   ],
   "note": ""
  },
  {
   "property": "C09",
   "status": "proved",
   "theorems": [
    "PyLisp.Props.ipv4_accepted_iff",
    "PyLisp.Props.ipv4_options_never_accepted",
    "PyLisp.Props.ipv4_options_received"
   ],
   "note": ""
  },
  {
   "property": "C10",
   "status": "proved",
   "theorems": [
    "PyLisp.Props.ipv4_accepted_iff",
    "PyLisp.Props.ipv4_header_corruption_rejected"
   ],
   "note": ""
  },
  {
   "property": "C11",
   "status": "proved",
   "theorems": [
    "PyLisp.Props.ipv4_accepted_iff",
    "PyLisp.Props.ipv4_accepted_checks"
   ],
   "note": ""
  },
  {
   "property": "C12",
   "status": "proved",
   "theorems": [
    "PyLisp.Props.ipv6_accepted_iff",
    "PyLisp.Props.ipv6_round_trip",
    "PyLisp.Props.ipv6_written",
    "PyLisp.Props.ipv6_writable_iff",
    "PyLisp.Props.ipv6_round_trip_undecoded",
    "PyLisp.Props.ipv6_chain_round_trip",
    "PyLisp.Props.ipv6_fragment_round_trip",
    "PyLisp.Props.ipv6_nonext_round_trip"
   ],
   "note": ""
  },
  {
   "property": "C13",
   "status": "proved",
   "theorems": [
    "PyLisp.Props.final_payload_of_chain",
    "PyLisp.Props.is_fragmented_of_chain",
    "PyLisp.Props.every_payload_is_a_stack",
    "PyLisp.Props.ipv4_final_payload"
   ],
   "note": ""
  },
  {
   "property": "C14",
   "status": "proved",
   "theorems": [
    "PyLisp.Props.udp_accepted_iff",
    "PyLisp.Props.udp_round_trip",
    "PyLisp.Props.udp_round_trip_raw",
    "PyLisp.Props.udp_written_iff"
   ],
   "note": ""
  },
  {
   "property": "C15",
   "status": "proved",
   "theorems": [
    "PyLisp.Props.udp_checksum_verifies",
    "PyLisp.Props.udp_zero_checksum_accepted",
    "PyLisp.Props.udp_verify_iff",
    "PyLisp.Props.udp_checksum_defined_iff"
   ],
   "note": ""
  },
  {
   "property": "C16",
   "status": "proved",
   "theorems": [
    "PyLisp.Props.udp_verify_iff",
    "PyLisp.Props.udp_corruption_detected"
   ],
   "note": ""
  },
  {
   "property": "C17",
   "status": "proved",
   "theorems": [
    "PyLisp.Props.data_accepted_iff",
    "PyLisp.Props.data_round_trip",
    "PyLisp.Props.data_written"
   ],
   "note": ""
  },
  {
   "property": "C18",
   "status": "proved",
   "theorems": [
    "PyLisp.Props.data_writable_iff"
   ],
   "note": ""
  },
  {
   "property": "C19",
   "status": "proved",
   "theorems": [
    "PyLisp.Props.locator_round_trip_flat",
    "PyLisp.Props.locator_round_trip",
    "PyLisp.Props.locator_round_trip_any",
    "PyLisp.Props.locator_layout",
    "PyLisp.Props.locator_no_truncation"
   ],
   "note": ""
  },
  {
   "property": "C20",
   "status": "proved",
   "theorems": [
    "PyLisp.Props.locator_language",
    "PyLisp.Props.get_addresses_iff",
    "PyLisp.Props.locator_accepted_iff",
    "PyLisp.Props.locator_writable_iff",
    "PyLisp.Props.locator_rejected",
    "PyLisp.Props.locator_accepted_exact",
    "PyLisp.Props.locator_parsed_valid"
   ],
   "note": ""
  },
  {
   "property": "C21",
   "status": "proved",
   "theorems": [
    "PyLisp.Props.record_sanitize_iff",
    "PyLisp.Props.record_round_trip",
    "PyLisp.Props.record_round_trip_fixed",
    "PyLisp.Props.record_writable",
    "PyLisp.Props.record_writable_iff",
    "PyLisp.Props.record_layout",
    "PyLisp.Props.record_no_truncation"
   ],
   "note": ""
  },
  {
   "property": "C22",
   "status": "proved",
   "theorems": [
    "PyLisp.Props.record_locators_sorted",
    "PyLisp.Props.record_parsed_sorted",
    "PyLisp.Props.record_order_irrelevant"
   ],
   "note": ""
  },
  {
   "property": "C23",
   "status": "proved",
   "theorems": [
    "PyLisp.Props.referral_record_language",
    "PyLisp.Props.referral_accepted_iff",
    "PyLisp.Props.referral_parsed_valid",
    "PyLisp.Props.referral_written_valid"
   ],
   "note": ""
  },
  {
   "property": "C24",
   "status": "proved",
   "theorems": [
    "PyLisp.Props.referral_record_language",
    "PyLisp.Props.referral_writable_iff",
    "PyLisp.Props.referral_readable_iff",
    "PyLisp.Props.referral_never_truncated",
    "PyLisp.Props.referral_round_trip",
    "PyLisp.Props.referral_round_trip_fixed",
    "PyLisp.Props.referral_locators_sorted",
    "PyLisp.Props.referral_no_truncation"
   ],
   "note": ""
  },
  {
   "property": "C25",
   "status": "proved",
   "theorems": [
    "PyLisp.Props.map_request_round_trip_flat",
    "PyLisp.Props.map_request_round_trip",
    "PyLisp.Props.map_request_round_trip_exact",
    "PyLisp.Props.map_request_writable_iff",
    "PyLisp.Props.get_addresses_iff"
   ],
   "note": ""
  },
  {
   "property": "C26",
   "status": "proved",
   "theorems": [
    "PyLisp.Props.map_reply_round_trip",
    "PyLisp.Props.map_reply_round_trip_exact",
    "PyLisp.Props.map_reply_writable_iff"
   ],
   "note": ""
  },
  {
   "property": "C27",
   "status": "proved",
   "theorems": [
    "PyLisp.Props.map_register_round_trip",
    "PyLisp.Props.map_register_round_trip_exact",
    "PyLisp.Props.map_register_writable_iff"
   ],
   "note": ""
  },
  {
   "property": "C28",
   "status": "proved",
   "theorems": [
    "PyLisp.Props.map_notify_round_trip",
    "PyLisp.Props.map_notify_round_trip_exact",
    "PyLisp.Props.map_notify_writable_iff"
   ],
   "note": ""
  },
  {
   "property": "C29",
   "status": "proved",
   "theorems": [
    "PyLisp.Props.map_referral_readable_iff",
    "PyLisp.Props.map_referral_round_trip",
    "PyLisp.Props.map_referral_round_trip_exact",
    "PyLisp.Props.map_referral_writable_iff"
   ],
   "note": ""
  },
  {
   "property": "C30",
   "status": "proved",
   "theorems": [
    "PyLisp.Props.info_insert_verifies",
    "PyLisp.Props.info_verify_iff",
    "PyLisp.Props.info_verify_received",
    "PyLisp.Props.info_sent_verifies",
    "PyLisp.Props.info_insert_content",
    "PyLisp.Props.info_insert_defined",
    "PyLisp.Props.info_verify_total",
    "PyLisp.Props.info_forgery_is_collision",
    "PyLisp.Props.info_verify_cases",
    "PyLisp.Props.info_unauthenticated_verifies",
    "PyLisp.Props.info_verify_any",
    "PyLisp.Props.info_round_trip_flat",
    "PyLisp.Props.info_round_trip",
    "PyLisp.Props.info_round_trip_exact",
    "PyLisp.Props.info_accepted",
    "PyLisp.Props.info_writable_iff"
   ],
   "note": ""
  },
  {
   "property": "C31",
   "status": "proved",
   "theorems": [
    "PyLisp.Props.ecm_bytes",
    "PyLisp.Props.ecm_round_trip",
    "PyLisp.Props.ecm_written_iff",
    "PyLisp.Props.ecm_accepted_iff"
   ],
   "note": ""
  },
  {
   "property": "C32",
   "status": "proved",
   "theorems": [
    "PyLisp.Props.control_language",
    "PyLisp.Props.control_dispatch_iff",
    "PyLisp.Props.control_result",
    "PyLisp.Props.control_unregistered_rejected"
   ],
   "note": ""
  },
  {
   "property": "C33",
   "status": "proved",
   "theorems": [
    "PyLisp.Props.referral_never_truncated",
    "PyLisp.Props.map_referral_never_truncated",
    "PyLisp.Props.map_request_no_truncation",
    "PyLisp.Props.map_reply_no_truncation",
    "PyLisp.Props.map_register_no_truncation",
    "PyLisp.Props.map_notify_no_truncation",
    "PyLisp.Props.map_referral_no_truncation",
    "PyLisp.Props.info_no_truncation",
    "PyLisp.Props.locator_no_truncation",
    "PyLisp.Props.record_no_truncation",
    "PyLisp.Props.referral_no_truncation"
   ],
   "note": ""
  },
  {
   "property": "C34",
   "status": "proved",
   "theorems": [
    "PyLisp.Props.map_register_reserialises_iff",
    "PyLisp.Props.map_notify_reserialises_iff",
    "PyLisp.Props.address_reserialises",
    "PyLisp.Props.map_reply_reserialises",
    "PyLisp.Props.map_request_reserialises_iff",
    "PyLisp.Props.info_reserialises_iff",
    "PyLisp.Props.map_referral_reserialises",
    "PyLisp.Props.map_request_stable",
    "PyLisp.Props.map_request_stable_exact",
    "PyLisp.Props.map_reply_stable",
    "PyLisp.Props.map_register_stable",
    "PyLisp.Props.map_notify_stable",
    "PyLisp.Props.map_referral_stable",
    "PyLisp.Props.info_stable",
    "PyLisp.Props.control_rewritten",
    "PyLisp.Props.packet_writable_iff",
    "PyLisp.Props.packet_written_again",
    "PyLisp.Props.packet_stable",
    "PyLisp.Props.packet_rewritten",
    "PyLisp.Props.map_request_unwritable"
   ],
   "note": ""
  },
  {
   "property": "C35",
   "status": "proved",
   "theorems": [
    "PyLisp.Props.afi_ip_layout",
    "PyLisp.Props.address_bytes",
    "PyLisp.Props.locator_bytes",
    "PyLisp.Props.record_bytes",
    "PyLisp.Props.referral_record_bytes",
    "PyLisp.Props.map_request_bytes",
    "PyLisp.Props.map_reply_bytes",
    "PyLisp.Props.map_register_bytes",
    "PyLisp.Props.map_notify_bytes",
    "PyLisp.Props.map_referral_bytes",
    "PyLisp.Props.info_bytes",
    "PyLisp.Props.ecm_bytes"
   ],
   "note": ""
  },
  {
   "property": "C36",
   "status": "proved",
   "theorems": [
    "PyLisp.Props.register_insert_verifies",
    "PyLisp.Props.register_insert_content",
    "PyLisp.Props.register_insert_defined",
    "PyLisp.Props.register_sent_key",
    "PyLisp.Props.register_sent_verifies",
    "PyLisp.Props.notify_insert_verifies",
    "PyLisp.Props.notify_insert_content",
    "PyLisp.Props.notify_insert_defined",
    "PyLisp.Props.notify_sent_verifies",
    "PyLisp.Props.info_insert_verifies",
    "PyLisp.Props.info_sent_verifies",
    "PyLisp.Props.info_insert_content",
    "PyLisp.Props.info_insert_defined",
    "PyLisp.Props.info_request_arrives"
   ],
   "note": ""
  },
  {
   "property": "C37",
   "status": "proved",
   "theorems": [
    "PyLisp.Props.register_verify_iff",
    "PyLisp.Props.register_verify_total",
    "PyLisp.Props.register_forgery_is_collision",
    "PyLisp.Props.notify_verify_iff",
    "PyLisp.Props.notify_verify_total",
    "PyLisp.Props.notify_forgery_is_collision",
    "PyLisp.Props.info_verify_iff",
    "PyLisp.Props.info_verify_total",
    "PyLisp.Props.info_forgery_is_collision"
   ],
   "note": ""
  },
  {
   "property": "C38",
   "status": "proved",
   "theorems": [
    "PyLisp.Props.register_verify_received",
    "PyLisp.Props.notify_verify_received",
    "PyLisp.Props.info_verify_received",
    "PyLisp.Props.register_verify_any",
    "PyLisp.Props.notify_verify_any",
    "PyLisp.Props.register_zero_ids_not_covered",
    "PyLisp.Props.info_verify_any"
   ],
   "note": ""
  },
  {
   "property": "C39",
   "status": "proved",
   "theorems": [
    "PyLisp.Props.register_verify_cases",
    "PyLisp.Props.register_unauthenticated_verifies",
    "PyLisp.Props.notify_verify_cases",
    "PyLisp.Props.notify_unauthenticated_verifies",
    "PyLisp.Props.info_verify_cases",
    "PyLisp.Props.info_unauthenticated_verifies"
   ],
   "note": ""
  },
  {
   "property": "C40",
   "status": "proved",
   "theorems": [
    "PyLisp.Props.registry_first_wins",
    "PyLisp.Props.registry_range",
    "PyLisp.Props.register_accepts_iff",
    "PyLisp.Props.registry_order_free"
   ],
   "note": ""
  },
  {
   "property": "C41",
   "status": "proved",
   "theorems": [
    "PyLisp.Props.container_step_sound",
    "PyLisp.Props.container_sound"
   ],
   "note": ""
  },
  {
   "property": "C42",
   "status": "proved",
   "theorems": [
    "PyLisp.Props.resolve_outside",
    "PyLisp.Props.resolve_prefix",
    "PyLisp.Props.resolve_address",
    "PyLisp.Props.resolve_order_independent"
   ],
   "note": ""
  },
  {
   "property": "C43",
   "status": "proved",
   "theorems": [
    "PyLisp.Props.add_cases",
    "PyLisp.Props.add_fresh_found",
    "PyLisp.Props.add_same_prefix_breaks",
    "PyLisp.Props.container_distinct",
    "PyLisp.Props.discard_prefix",
    "PyLisp.Props.remove_prefix",
    "PyLisp.Props.remove_node",
    "PyLisp.Props.lookup_by_network",
    "PyLisp.Props.lookup_by_address"
   ],
   "note": ""
  },
  {
   "property": "C44",
   "status": "proved",
   "theorems": [
    "PyLisp.Props.ddt_load_ok_iff",
    "PyLisp.Props.ddt_load_resolves",
    "PyLisp.Props.ddt_load_nothing_else",
    "PyLisp.Props.ddt_load_wildcard",
    "PyLisp.Props.ddt_load_raises",
    "PyLisp.Props.ddt_text_raises"
   ],
   "note": ""
  },
  {
   "property": "C45",
   "status": "proved",
   "theorems": [
    "PyLisp.Props.registration_accepted_iff",
    "PyLisp.Props.registration_stored",
    "PyLisp.Props.registration_rejected",
    "PyLisp.Props.received_record_eid",
    "PyLisp.Props.registration_received",
    "PyLisp.Props.registration_unauthenticated",
    "PyLisp.Props.map_register_stores",
    "PyLisp.Props.register_texts_defined"
   ],
   "note": ""
  },
  {
   "property": "C46",
   "status": "proved",
   "theorems": [
    "PyLisp.Props.forgotten",
    "PyLisp.Props.store_exact",
    "PyLisp.Props.registration_deadline",
    "PyLisp.Props.not_deleted_early",
    "PyLisp.Props.expired_gone",
    "PyLisp.Props.no_empty_entry",
    "PyLisp.Props.no_key_error",
    "PyLisp.Props.register_steps"
   ],
   "note": ""
  },
  {
   "property": "C47",
   "status": "proved",
   "theorems": [
    "PyLisp.Props.registration_handshake",
    "PyLisp.Props.map_register_stores",
    "PyLisp.Props.map_register_answer",
    "PyLisp.Props.map_register_received",
    "PyLisp.Props.map_register_lookup_error"
   ],
   "note": ""
  },
  {
   "property": "C48",
   "status": "proved",
   "theorems": [
    "PyLisp.Props.map_request_answered_iff",
    "PyLisp.Props.map_request_answer",
    "PyLisp.Props.map_request_prefix",
    "PyLisp.Props.map_request_answer_received"
   ],
   "note": ""
  },
  {
   "property": "C49",
   "status": "proved",
   "theorems": [
    "PyLisp.Props.ddt_not_delegated",
    "PyLisp.Props.ddt_delegated",
    "PyLisp.Props.ddt_map_server",
    "PyLisp.Props.ddt_unanswered",
    "PyLisp.Props.ddt_answer_received",
    "PyLisp.Props.ddt_on_the_wire"
   ],
   "note": ""
  },
  {
   "property": "C50",
   "status": "proved",
   "theorems": [
    "PyLisp.Props.notify_stored",
    "PyLisp.Props.notify_ignored",
    "PyLisp.Props.notify_routed",
    "PyLisp.Props.notify_routed_error",
    "PyLisp.Props.notify_only_from_server",
    "PyLisp.Props.notify_accepted_iff",
    "PyLisp.Props.notify_accepted_authentic",
    "PyLisp.Props.notify_without_key",
    "PyLisp.Props.notify_other_ids",
    "PyLisp.Props.register_success_iff",
    "PyLisp.Props.register_outcome",
    "PyLisp.Props.registration_handshake",
    "PyLisp.Props.notify_texts_defined"
   ],
   "note": ""
  },
  {
   "property": "C51",
   "status": "proved",
   "theorems": [
    "PyLisp.Props.etr_locators_defined",
    "PyLisp.Props.etr_locators_spec",
    "PyLisp.Props.etr_locators_set",
    "PyLisp.Props.etr_locators_reachable"
   ],
   "note": ""
  },
  {
   "property": "C52",
   "status": "proved",
   "theorems": [
    "PyLisp.Props.set_rtrs_signals",
    "PyLisp.Props.set_rtrs_unchanged",
    "PyLisp.Props.set_rtrs_stored",
    "PyLisp.Props.locator_change_unnoticed",
    "PyLisp.Props.locators_unnoticed",
    "PyLisp.Props.removed_registration_keeps_rtrs",
    "PyLisp.Props.added_registration"
   ],
   "note": ""
  },
  {
   "property": "C53",
   "status": "proved",
   "theorems": [
    "PyLisp.Props.thread_ends_iff",
    "PyLisp.Props.asks_nat_iff",
    "PyLisp.Props.registers_iff",
    "PyLisp.Props.after_registration",
    "PyLisp.Props.refresh_schedule",
    "PyLisp.Props.retry_after_failure",
    "PyLisp.Props.nat_exception",
    "PyLisp.Props.register_exception",
    "PyLisp.Props.signal_seen",
    "PyLisp.Props.registers_twice",
    "PyLisp.Props.at_most_three",
    "PyLisp.Props.registers_every_minute"
   ],
   "note": ""
  },
  {
   "property": "C54",
   "status": "proved",
   "theorems": [
    "PyLisp.Props.send_message_spec",
    "PyLisp.Props.send_success_iff",
    "PyLisp.Props.send_failure_iff",
    "PyLisp.Props.send_at_most_once",
    "PyLisp.Props.send_unserialisable",
    "PyLisp.Props.destination_text",
    "PyLisp.Props.destination_raises",
    "PyLisp.Props.send_calls",
    "PyLisp.Props.send_bad_destination"
   ],
   "note": ""
  },
  {
   "property": "C55",
   "status": "proved",
   "theorems": [
    "PyLisp.Props.auto_socket_invariant",
    "PyLisp.Props.auto_socket_rebind",
    "PyLisp.Props.auto_socket_new",
    "PyLisp.Props.auto_socket_bound",
    "PyLisp.Props.auto_socket_io"
   ],
   "note": ""
  },
  {
   "property": "C56",
   "status": "proved",
   "theorems": [
    "PyLisp.Props.chosen_address",
    "PyLisp.Props.update_notifies",
    "PyLisp.Props.no_interface",
    "PyLisp.Props.updates_notify",
    "PyLisp.Props.targets_nodup"
   ],
   "note": ""
  },
  {
   "property": "C57",
   "status": "proved",
   "theorems": [
    "PyLisp.Props.datagram_numbers",
    "PyLisp.Props.message_numbers",
    "PyLisp.Props.numbers_distinct",
    "PyLisp.Props.explicit_number",
    "PyLisp.Props.receive_iff",
    "PyLisp.Props.receive_error"
   ],
   "note": ""
  },
  {
   "property": "C58",
   "status": "proved",
   "theorems": [
    "PyLisp.Props.handled_answer",
    "PyLisp.Props.answer_calls",
    "PyLisp.Props.answered_once",
    "PyLisp.Props.handled_changes",
    "PyLisp.Props.rejected_changes_nothing",
    "PyLisp.Props.datagram_numbers",
    "PyLisp.Props.answers_not_answered",
    "PyLisp.Props.never_stops",
    "PyLisp.Props.stop_stops",
    "PyLisp.Props.batch_complete"
   ],
   "note": ""
  },
  {
   "property": "C59",
   "status": "proved",
   "theorems": [
    "PyLisp.Props.load_settings_iff",
    "PyLisp.Props.loaded_instances",
    "PyLisp.Props.one_family_rejected",
    "PyLisp.Props.configured_trees"
   ],
   "note": ""
  },
  {
   "property": "C60",
   "status": "proved",
   "theorems": [
    "PyLisp.Props.xtr_id_spec",
    "PyLisp.Props.xtr_id_halves",
    "PyLisp.Props.xtr_id_injective",
    "PyLisp.Props.xtr_id_generated",
    "PyLisp.Props.xtr_id_too_long",
    "PyLisp.Props.xtr_id_text",
    "PyLisp.Props.xtr_id_raises"
   ],
   "note": ""
  },
  {
   "property": "C61",
   "status": "proved",
   "theorems": [
    "PyLisp.Props.update_addresses_spec",
    "PyLisp.Props.create_spec",
    "PyLisp.Props.unregistered_stale",
    "PyLisp.Props.object_lifetime",
    "PyLisp.Props.registered_follows"
   ],
   "note": ""
  },
  {
   "property": "C62",
   "status": "proved",
   "theorems": [
    "PyLisp.Props.register_content",
    "PyLisp.Props.register_sent",
    "PyLisp.Props.nat_register_sendable",
    "PyLisp.Props.nat_register_arrives",
    "PyLisp.Props.unauthenticated_never_sent",
    "PyLisp.Props.keyless_never_sent"
   ],
   "note": ""
  },
  {
   "property": "C63",
   "status": "proved",
   "theorems": [
    "PyLisp.Props.info_reply_stored",
    "PyLisp.Props.info_reply_ignored",
    "PyLisp.Props.info_routed",
    "PyLisp.Props.info_reply_unauthenticated",
    "PyLisp.Props.nat_disabled",
    "PyLisp.Props.nat_detected_iff",
    "PyLisp.Props.nat_unsendable",
    "PyLisp.Props.nat_without_rtrs",
    "PyLisp.Props.info_request_arrives",
    "PyLisp.Props.info_text_defined"
   ],
   "note": ""
  },
  {
   "property": "C64",
   "status": "proved",
   "theorems": [
    "PyLisp.Props.data_forwarded_content_iff",
    "PyLisp.Props.data_forwarded_same",
    "PyLisp.Props.data_options_corrupted",
    "PyLisp.Props.data_forwarded_iff",
    "PyLisp.Props.data_forwarded_unchanged",
    "PyLisp.Props.data_forwarded_destination",
    "PyLisp.Props.data_not_forwarded",
    "PyLisp.Props.udp_fragment_dropped",
    "PyLisp.Props.data_is_not_control",
    "PyLisp.Props.plain_rewritten"
   ],
   "note": ""
  },
  {
   "property": "C65",
   "status": "proved",
   "theorems": [
    "PyLisp.Props.control_over_data_not_forwarded",
    "PyLisp.Props.control_over_data",
    "PyLisp.Props.control_over_data_ignored"
   ],
   "note": ""
  },
  {
   "property": "C66",
   "status": "proved",
   "theorems": [
    "PyLisp.Props.tunnel_content",
    "PyLisp.Props.encapsulated_iff",
    "PyLisp.Props.tunnel"
   ],
   "note": ""
  },
  {
   "property": "C67",
   "status": "proved",
   "theorems": [
    "PyLisp.Props.query_arrives",
    "PyLisp.Props.map_resolve_ignored",
    "PyLisp.Props.ddt_query_answered",
    "PyLisp.Props.ddt_query_unanswered",
    "PyLisp.Props.register_tool_arrives",
    "PyLisp.Props.register_tool_stored",
    "PyLisp.Props.tool_tries_all",
    "PyLisp.Props.tool_ends",
    "PyLisp.Props.tools_run"
   ],
   "note": ""
  },
  {
   "property": "C68",
   "status": "proved",
   "theorems": [
    "PyLisp.Props.thread_lifecycle",
    "PyLisp.Props.thread_ends",
    "PyLisp.Props.late_node",
    "PyLisp.Props.startup_iff",
    "PyLisp.Props.startup_sockets",
    "PyLisp.Props.startup_nodes",
    "PyLisp.Props.registrations_run",
    "PyLisp.Props.exit_status",
    "PyLisp.Props.configured_trees",
    "PyLisp.Props.deleted_stops"
   ],
   "note": ""
  },
  {
   "property": "C69",
   "status": "proved",
   "theorems": [
    "PyLisp.Props.address_language",
    "PyLisp.Props.prefix_language",
    "PyLisp.Props.locator_language",
    "PyLisp.Props.record_language",
    "PyLisp.Props.referral_record_language",
    "PyLisp.Props.map_request_language",
    "PyLisp.Props.map_reply_language",
    "PyLisp.Props.map_register_language",
    "PyLisp.Props.map_notify_language",
    "PyLisp.Props.map_referral_language",
    "PyLisp.Props.info_language",
    "PyLisp.Props.control_language",
    "PyLisp.Props.control_unambiguous"
   ],
   "note": ""
  },
  {
   "property": "C70",
   "status": "proved",
   "theorems": [
    "PyLisp.Props.registers_every_minute",
    "PyLisp.Props.stays_registered",
    "PyLisp.Props.forgotten"
   ],
   "note": ""
  },
  {
   "property": "C71",
   "status": "proved",
   "theorems": [
    "PyLisp.Props.ddt_file_roundtrip",
    "PyLisp.Props.ddt_text_loads_iff",
    "PyLisp.Props.ddt_text_raises",
    "PyLisp.Props.ddt_text_unambiguous",
    "PyLisp.Props.ddt_text_same",
    "PyLisp.Props.decimal_value"
   ],
   "note": ""
  },
  {
   "property": "C72",
   "status": "proved",
   "theorems": [
    "PyLisp.Props.coordinate_kept",
    "PyLisp.Props.negative_coordinate",
    "PyLisp.Props.coordinates_sent",
    "PyLisp.Props.negative_not_sent"
   ],
   "note": ""
  },
  {
   "property": "C73",
   "status": "proved",
   "theorems": [
    "PyLisp.Props.container_at_most_two",
    "PyLisp.Props.container_copy",
    "PyLisp.Props.container_copy_lookup",
    "PyLisp.Props.referral_update",
    "PyLisp.Props.referral_calls",
    "PyLisp.Props.referral_nodup",
    "PyLisp.Props.referral_copy"
   ],
   "note": ""
  },
  {
   "property": "C74",
   "status": "proved",
   "theorems": [
    "PyLisp.Props.same_address_again",
    "PyLisp.Props.other_address_differs",
    "PyLisp.Props.cached_follows",
    "PyLisp.Props.one_object_each"
   ],
   "note": ""
  },
  {
   "property": "C75",
   "status": "proved",
   "theorems": [
    "PyLisp.Props.locator_add",
    "PyLisp.Props.locator_remove",
    "PyLisp.Props.locator_stays",
    "PyLisp.Props.locator_now",
    "PyLisp.Props.locator_follows",
    "PyLisp.Props.locator_removed",
    "PyLisp.Props.locator_lost",
    "PyLisp.Props.locator_equal_twice"
   ],
   "note": ""
  },
  {
   "property": "C76",
   "status": "proved",
   "theorems": [
    "PyLisp.Props.answer_genuine",
    "PyLisp.Props.list_exact",
    "PyLisp.Props.threads_go_on",
    "PyLisp.Props.abandoned_stays",
    "PyLisp.Props.missed_only_if_left",
    "PyLisp.Props.answer_taken",
    "PyLisp.Props.notify_never_raises",
    "PyLisp.Props.info_reply_raises_iff",
    "PyLisp.Props.info_reply_source",
    "PyLisp.Props.taken_counts",
    "PyLisp.Props.compared_authenticated",
    "PyLisp.Props.answer_once",
    "PyLisp.Props.request_life",
    "PyLisp.Props.wait_over"
   ],
   "note": ""
  },
  {
   "property": "C77",
   "status": "proved",
   "theorems": [
    "PyLisp.Props.instance_prefix_raises",
    "PyLisp.Props.address_raises",
    "PyLisp.Props.prefix_raises",
    "PyLisp.Props.locator_raises",
    "PyLisp.Props.record_raises",
    "PyLisp.Props.map_request_raises",
    "PyLisp.Props.map_register_raises",
    "PyLisp.Props.map_notify_raises",
    "PyLisp.Props.info_raises",
    "PyLisp.Props.map_reply_raises",
    "PyLisp.Props.map_referral_raises",
    "PyLisp.Props.packet_raises",
    "PyLisp.Props.header_raises",
    "PyLisp.Props.type_error_needs_lcaf",
    "PyLisp.Props.record_type_error_iff",
    "PyLisp.Props.map_reply_not_implemented_iff",
    "PyLisp.Props.ecm_not_implemented",
    "PyLisp.Props.referral_record_not_implemented_iff",
    "PyLisp.Props.verdict_stands",
    "PyLisp.Props.map_request_unwritable"
   ],
   "note": ""
  },
  {
   "property": "C78",
   "status": "proved",
   "theorems": [
    "PyLisp.Props.calls_as_values",
    "PyLisp.Props.objects_after",
    "PyLisp.Props.to_bytes_stable",
    "PyLisp.Props.verify_returns",
    "PyLisp.Props.raising_spoils",
    "PyLisp.Props.authenticated_stays",
    "PyLisp.Props.sanitize_again"
   ],
   "note": ""
  },
  {
   "property": "C79",
   "status": "proved",
   "theorems": [
    "PyLisp.Props.packets_as_values",
    "PyLisp.Props.packet_objects_after",
    "PyLisp.Props.calls_alone",
    "PyLisp.Props.packet_bytes_stable",
    "PyLisp.Props.checksum_lost",
    "PyLisp.Props.verify_raises_once",
    "PyLisp.Props.packet_sanitize_again"
   ],
   "note": ""
  },
  {
   "property": "C80",
   "status": "proved",
   "theorems": [
    "PyLisp.Props.lisp_message_iff",
    "PyLisp.Props.lisp_data_packet_iff",
    "PyLisp.Props.lisp_control_message_iff",
    "PyLisp.Props.lisp_message_raises",
    "PyLisp.Props.lisp_content_raises",
    "PyLisp.Props.accepted_lisp_message_iff"
   ],
   "note": ""
  },
  {
   "property": "C81",
   "status": "proved",
   "theorems": [
    "PyLisp.Props.register_stored_remotely",
    "PyLisp.Props.registration_round_trip"
   ],
   "note": ""
  },
  {
   "property": "C82",
   "status": "proved",
   "theorems": [
    "PyLisp.Props.config_paths",
    "PyLisp.Props.config_paths_plain",
    "PyLisp.Props.absolute_name_taken_apart",
    "PyLisp.Props.config_precedence"
   ],
   "note": ""
  },
  {
   "property": "C83",
   "status": "proved",
   "theorems": [
    "PyLisp.Props.loaded_follows",
    "PyLisp.Props.loaded_vlan2",
    "PyLisp.Props.shipped_never_listens"
   ],
   "note": ""
  },
  {
   "property": "C84",
   "status": "proved",
   "theorems": [
    "PyLisp.Props.interrupted_parsing",
    "PyLisp.Props.nesting_limit",
    "PyLisp.Props.nesting_limit_rejects",
    "PyLisp.Props.deeply_nested",
    "PyLisp.Props.nesting_bounded"
   ],
   "note": ""
  },
  {
   "property": "C85",
   "status": "proved",
   "theorems": [
    "PyLisp.Props.lookup_answered_iff",
    "PyLisp.Props.lookup_writable_iff",
    "PyLisp.Props.lookup_round_trip"
   ],
   "note": ""
  },
  {
   "property": "C86",
   "status": "proved",
   "theorems": [
    "PyLisp.Props.register_insert_defined",
    "PyLisp.Props.register_sent_key",
    "PyLisp.Props.notify_insert_defined",
    "PyLisp.Props.info_insert_defined",
    "PyLisp.Props.map_register_reserialises_iff",
    "PyLisp.Props.map_notify_reserialises_iff",
    "PyLisp.Props.info_reserialises_iff",
    "PyLisp.Props.unauthenticated_never_sent",
    "PyLisp.Props.unauthenticated_unwritable",
    "PyLisp.Props.keyless_never_sent",
    "PyLisp.Props.map_register_received"
   ],
   "note": ""
  },
  {
   "property": "C87",
   "status": "proved",
   "theorems": [
    "PyLisp.Props.reply_object",
    "PyLisp.Props.register_object",
    "PyLisp.Props.notify_object",
    "PyLisp.Props.referral_object",
    "PyLisp.Props.info_object",
    "PyLisp.Props.request_object",
    "PyLisp.Props.locator_object",
    "PyLisp.Props.record_object",
    "PyLisp.Props.ref_record_object",
    "PyLisp.Props.ecm_object",
    "PyLisp.Props.data_object",
    "PyLisp.Props.ipv4_object",
    "PyLisp.Props.ipv6_object",
    "PyLisp.Props.udp_object"
   ],
   "note": ""
  },
  {
   "property": "C88",
   "status": "proved",
   "theorems": [
    "PyLisp.Props.auto_socket_over_time",
    "PyLisp.Props.leftover_bound",
    "PyLisp.Props.leftover_address",
    "PyLisp.Props.certainly_read",
    "PyLisp.Props.lispd_certainly_reads"
   ],
   "note": ""
  },
  {
   "property": "C89",
   "status": "proved",
   "theorems": [
    "PyLisp.Props.lcaf_object",
    "PyLisp.Props.lcaf_object_read",
    "PyLisp.Props.options_header_object",
    "PyLisp.Props.routing_header_object",
    "PyLisp.Props.fragment_header_object",
    "PyLisp.Props.udp_checksum_object"
   ],
   "note": ""
  },
  {
   "property": "C90",
   "status": "proved",
   "theorems": [
    "PyLisp.Props.race_in_order",
    "PyLisp.Props.race_sent_from",
    "PyLisp.Props.race_quiet_send",
    "PyLisp.Props.race_quiet_rebind",
    "PyLisp.Props.race_stays",
    "PyLisp.Props.race_can_lose",
    "PyLisp.Props.race_can_raise",
    "PyLisp.Props.race_only_loss"
   ],
   "note": ""
  },
  {
   "property": "C91",
   "status": "proved",
   "theorems": [
    "PyLisp.Props.signal_queue",
    "PyLisp.Props.runs_until_told",
    "PyLisp.Props.stop_obeyed",
    "PyLisp.Props.pipe_large_enough",
    "PyLisp.Props.hup_does_not_stop"
   ],
   "note": ""
  },
  {
   "property": "C92",
   "status": "proved",
   "theorems": [
    "PyLisp.Props.register_quiet",
    "PyLisp.Props.register_defined",
    "PyLisp.Props.register_announces",
    "PyLisp.Props.register_unset",
    "PyLisp.Props.register_steady_remote",
    "PyLisp.Props.register_steady_local",
    "PyLisp.Props.register_can_announce_unset",
    "PyLisp.Props.register_can_bypass_rtr"
   ],
   "note": ""
  },
  {
   "property": "C93",
   "status": "proved",
   "theorems": [
    "PyLisp.Props.cleanup_goes_on",
    "PyLisp.Props.cleanup_ends",
    "PyLisp.Props.gone_in_time",
    "PyLisp.Props.silent_forgotten"
   ],
   "note": ""
  },
  {
   "property": "C94",
   "status": "proved",
   "theorems": [
    "PyLisp.Props.rtr_change_not_lost",
    "PyLisp.Props.map_servers_agree",
    "PyLisp.Props.no_needless_signals",
    "PyLisp.Props.pass_alone",
    "PyLisp.Props.tellings_bounded",
    "PyLisp.Props.rtr_change_can_be_lost"
   ],
   "note": ""
  },
  {
   "property": "C95",
   "status": "proved",
   "theorems": [
    "PyLisp.Props.repr_evaluates_std",
    "PyLisp.Props.repr_value_back",
    "PyLisp.Props.repr_value_fault",
    "PyLisp.Props.repr_evaluates",
    "PyLisp.Props.repr_of_udp_fails",
    "PyLisp.Props.repr_packet_back",
    "PyLisp.Props.repr_packet_udp_fails",
    "PyLisp.Props.repr_address_back",
    "PyLisp.Props.repr_locator_back",
    "PyLisp.Props.repr_record_back",
    "PyLisp.Props.repr_referral_record_back",
    "PyLisp.Props.repr_tells_apart",
    "PyLisp.Props.repr_of_auto_fails",
    "PyLisp.Props.repr_hides_private"
   ],
   "note": ""
  },
  {
   "property": "C96",
   "status": "proved",
   "theorems": [
    "PyLisp.Props.ddt_helper_answers",
    "PyLisp.Props.ddt_helper_silent",
    "PyLisp.Props.ddt_helper_raises",
    "PyLisp.Props.ddt_helper_datagram",
    "PyLisp.Props.ddt_helper_no_eid"
   ],
   "note": ""
  },
  {
   "property": "C97",
   "status": "proved",
   "theorems": [
    "PyLisp.Props.ipv6_text_canonical",
    "PyLisp.Props.ipv6_group_text",
    "PyLisp.Props.address_text_back",
    "PyLisp.Props.network_text_back",
    "PyLisp.Props.texts_differ",
    "PyLisp.Props.text_defined_iff",
    "PyLisp.Props.send_address_by_text",
    "PyLisp.Props.network_by_text",
    "PyLisp.Props.text_is_address_iff",
    "PyLisp.Props.text_is_network_iff",
    "PyLisp.Props.text_not_read"
   ],
   "note": ""
  },
  {
   "property": "C98",
   "status": "proved",
   "theorems": [
    "PyLisp.Props.node_text_iff",
    "PyLisp.Props.node_text_prefix",
    "PyLisp.Props.received_shows",
    "PyLisp.Props.registration_text_iff",
    "PyLisp.Props.socket_text_iff"
   ],
   "note": ""
  },
  {
   "property": "C99",
   "status": "proved",
   "theorems": [
    "PyLisp.Props.xtr_raises",
    "PyLisp.Props.shipped_xtr_never_loads",
    "PyLisp.Props.shipped_server_loads",
    "PyLisp.Props.shipped_server_ipv4",
    "PyLisp.Props.shipped_server_ipv6"
   ],
   "note": ""
  },
  {
   "property": "C100",
   "status": "proved",
   "theorems": [
    "PyLisp.Props.locator_update_value",
    "PyLisp.Props.locator_update_other",
    "PyLisp.Props.locator_update_log",
    "PyLisp.Props.locator_log_unambiguous",
    "PyLisp.Props.auto_update_log",
    "PyLisp.Props.auto_update_outcome",
    "PyLisp.Props.default_listen",
    "PyLisp.Props.matching_addresses"
   ],
   "note": ""
  }
 ]
}