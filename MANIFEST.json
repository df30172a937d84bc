{
 "claims": [
  {
   "property": "C01",
   "status": "proved",
   "theorems": [
    "Verif.Props.Proof.C01_outcome_unique"
   ],
   "note": ""
  },
  {
   "property": "C02",
   "status": "proved",
   "theorems": [
    "Verif.Props.Proof.C02_accepted_is_true"
   ],
   "note": ""
  },
  {
   "property": "C03",
   "status": "proved",
   "theorems": [
    "Verif.Props.Proof.C03_honest_accepted"
   ],
   "note": ""
  },
  {
   "property": "C04",
   "status": "proved",
   "theorems": [
    "Verif.Props.Proof.C04_decode_safe",
    "Verif.Props.Proof.C04_decode_bounds",
    "Verif.Props.Proof.C04_verify_safe",
    "Verif.Props.Proof.C04_decode_roundtrip"
   ],
   "note": ""
  },
  {
   "property": "C05",
   "status": "proved",
   "theorems": [
    "Verif.Props.Chain.C05_never_aborts",
    "Verif.Props.Chain.C05_stored_headers_valid",
    "Verif.Props.Chain.C05_each_header"
   ],
   "note": ""
  },
  {
   "property": "C06",
   "status": "proved",
   "theorems": [
    "Verif.Props.Chain.C06_tip_has_most_work",
    "Verif.Props.Chain.C06_tip_only_moves_up"
   ],
   "note": ""
  },
  {
   "property": "C07",
   "status": "proved",
   "theorems": [
    "Verif.Props.Chain.C07_index_is_tip_ancestry",
    "Verif.Props.Chain.C07_index_linked"
   ],
   "note": ""
  },
  {
   "property": "C08",
   "status": "proved",
   "theorems": [
    "Verif.Props.Chain.C08_demanded_difficulty",
    "Verif.Props.Chain.C08_rule_is_a_function",
    "Verif.Props.Chain.C08_retarget_arithmetic"
   ],
   "note": ""
  },
  {
   "property": "C09",
   "status": "partial",
   "theorems": [
    "Verif.Props.Chain.C09_refused_changes_nothing_partial",
    "Verif.Props.Chain.C09_early_refusal",
    "Verif.Props.Chain.C09_error_but_stored"
   ],
   "note": "False of the code: a waiting header that turns out bad makes the call that stored its parent report an error (C09_error_but_stored). The _partial theorem says exactly when that can happen and that otherwise nothing served changes."
  },
  {
   "property": "C10",
   "status": "partial",
   "theorems": [
    "Verif.Props.Chain.C10_stranded",
    "Verif.Props.Chain.C10_nothing_waits_partial",
    "Verif.Props.Chain.C10_linear_chain_converges_partial"
   ],
   "note": "False of the code when two waiting headers share a parent (C10_stranded, proved). Proved for histories without such siblings, and full convergence for every linear chain in every arrival order."
  },
  {
   "property": "C11",
   "status": "proved",
   "theorems": [
    "Verif.Props.Chain.C11_orphans_bounded"
   ],
   "note": ""
  },
  {
   "property": "C12",
   "status": "proved",
   "theorems": [
    "Verif.Props.Chain.C12_locator_fits",
    "Verif.Props.Chain.C12_locator_shape"
   ],
   "note": ""
  },
  {
   "property": "C13",
   "status": "proved",
   "theorems": [
    "Verif.Props.Chain.C13_safe_root_exists",
    "Verif.Props.Chain.C13_safe_root_block",
    "Verif.Props.Chain.C13_safe_root_buried",
    "Verif.Props.Chain.C13_safe_root_stable"
   ],
   "note": ""
  },
  {
   "property": "C14",
   "status": "proved",
   "theorems": [
    "Verif.Props.Header.C14_roundtrip",
    "Verif.Props.Header.C14_size",
    "Verif.Props.Header.C14_read"
   ],
   "note": ""
  },
  {
   "property": "C15",
   "status": "partial",
   "theorems": [
    "Verif.Props.Header.C15_expand_aliases",
    "Verif.Props.Header.C15_expand_partial",
    "Verif.Props.Header.C15_nonpositive_refused",
    "Verif.Props.Header.C15_compress",
    "Verif.Props.Header.C15_roundtrip",
    "Verif.Props.Header.C15_zero"
   ],
   "note": "The claim is false of the code for exponents of 35 and above (C15_expand_aliases is the proved counterexample); C15_expand_partial proves it for exponents up to 34, and the compression half is proved for every target."
  },
  {
   "property": "C16",
   "status": "proved",
   "theorems": [
    "Verif.Props.Header.C16_bignum_exact",
    "Verif.Props.Header.C16_div_exact",
    "Verif.Props.Header.C16_div_zero_diverges",
    "Verif.Props.Header.C16_work_exact",
    "Verif.Props.Header.C16_work_no_wrap"
   ],
   "note": ""
  },
  {
   "property": "C17",
   "status": "proved",
   "theorems": [
    "Verif.Props.Header.C17_pow_check",
    "Verif.Props.Header.C17_preimage_determines_header"
   ],
   "note": ""
  },
  {
   "property": "C18",
   "status": "proved",
   "theorems": [
    "Verif.Props.Store.C18_saves_the_window",
    "Verif.Props.Store.C18_reload_restores",
    "Verif.Props.Store.C18_bad_file_ignored",
    "Verif.Props.Store.C18_truncated_file_ignored"
   ],
   "note": ""
  },
  {
   "property": "C19",
   "status": "proved",
   "theorems": [
    "Verif.Props.Store.C19_old_or_new",
    "Verif.Props.Store.C19_success",
    "Verif.Props.Store.C19_restart"
   ],
   "note": ""
  },
  {
   "property": "C20",
   "status": "partial",
   "theorems": [
    "Verif.Props.Timedata.C20_one_vote_each",
    "Verif.Props.Timedata.C20_bounded",
    "Verif.Props.Timedata.C20_offset_partial",
    "Verif.Props.Timedata.C20_offset_nonneg",
    "Verif.Props.Timedata.C20_sign_lost",
    "Verif.Props.Timedata.C20_overflow"
   ],
   "note": "One vote per host and the bounds are proved. The offset is the median only when the median is not negative (C20_sign_lost is the proved counterexample), and sample times near the int64 limits overflow (C20_overflow)."
  },
  {
   "property": "C21",
   "status": "proved",
   "theorems": [
    "Verif.Props.DnsName.C21_safe",
    "Verif.Props.DnsName.C21_result",
    "Verif.Props.DnsName.C21_meaning",
    "Verif.Props.DnsName.C21_unique",
    "Verif.Props.DnsName.C21_plain"
   ],
   "note": ""
  },
  {
   "property": "C22",
   "status": "partial",
   "theorems": [
    "Verif.Props.DnsName.C22_round_trip_partial",
    "Verif.Props.DnsName.C22_refused_partial",
    "Verif.Props.DnsName.C22_verify_partial",
    "Verif.Props.DnsName.C22_leading_dot_false",
    "Verif.Props.DnsName.C22_wire_length_false",
    "Verif.Props.DnsName.C22_bytes_false"
   ],
   "note": "Round trip, sizes and the exact set of accepted strings proved. The refusals hold except for a leading dot (C22_leading_dot_false) and the limit, which is 255 characters and so 256 wire bytes (C22_wire_length_false); label bytes 0xff and 0xfe read from the wire are sent as 0 and '.' (C22_bytes_false)."
  },
  {
   "property": "C23",
   "status": "partial",
   "theorems": [
    "Verif.Props.DnsName.C23_names",
    "Verif.Props.DnsName.C23_read_partial",
    "Verif.Props.DnsName.C23_chain_false"
   ],
   "note": "Every name written stands at its place, over earlier places only, for every sequence of names. This program's reader recovers those of at most ten labels; a longer chain of pointers it refuses (C23_chain_false)."
  },
  {
   "property": "C24",
   "status": "partial",
   "theorems": [
    "Verif.Props.Dns.C24_round_trip_partial",
    "Verif.Props.Dns.C24_safe",
    "Verif.Props.Dns.C24_decoded",
    "Verif.Props.Dns.C24_labels_false",
    "Verif.Props.Dns.C24_code_false"
   ],
   "note": "Proved for every well-formed message whose names, except that of the first question, have at most ten labels, all record types and EDNS; the decoder is safe on all packets and what it yields is valid. Longer names can be written so that this program's reader refuses them (C24_labels_false), and a code above 15 without EDNS is lost (C24_code_false)."
  },
  {
   "property": "C25",
   "status": "partial",
   "theorems": [
    "Verif.Props.Dns.C25_message_partial",
    "Verif.Props.Dns.C25_record_partial",
    "Verif.Props.Dns.C25_dot_false"
   ],
   "note": "Proved for every message and record the program can hold, compressed or not, except names that start with a dot, for which the buffer is overrun (C25_dot_false). P2P messages are covered by C47_size_partial and C47_size_false."
  },
  {
   "property": "C26",
   "status": "proved",
   "theorems": [
    "Verif.Props.Dns.C26_safe",
    "Verif.Props.Dns.C26_unchanged",
    "Verif.Props.Dns.C26_packet",
    "Verif.Props.Dns.C26_message",
    "Verif.Props.Dns.C26_question"
   ],
   "note": ""
  },
  {
   "property": "C27",
   "status": "partial",
   "theorems": [
    "Verif.Props.Req.C27_response_partial",
    "Verif.Props.Req.C27_packets",
    "Verif.Props.Req.C27_signed_partial",
    "Verif.Props.Req.C27_edns_false",
    "Verif.Props.Req.C27_signed_false"
   ],
   "note": "Proved for every request and every well-formed answer with names of at most ten labels, signed or not. A response that is cut off loses its EDNS data and is not marked as truncated (C27_edns_false); an answer that looks like it ends in a SIG(0) record is damaged by signing (C27_signed_false)."
  },
  {
   "property": "C28",
   "status": "partial",
   "theorems": [
    "Verif.Props.Req.C28_safe",
    "Verif.Props.Req.C28_accepts_partial",
    "Verif.Props.Req.C28_drops",
    "Verif.Props.Req.C28_class_false",
    "Verif.Props.Req.C28_version_false",
    "Verif.Props.Req.C28_response_false"
   ],
   "note": "The exact set of accepted packets is proved, and safety for all packets. The class and the EDNS version are not checked (C28_class_false, C28_version_false), and responses are accepted as requests (C28_response_false)."
  },
  {
   "property": "C29",
   "status": "partial",
   "theorems": [
    "Verif.Props.Resource.C29_exact",
    "Verif.Props.Resource.C29_serves",
    "Verif.Props.Resource.C29_safe_partial",
    "Verif.Props.Resource.C29_overrun_false",
    "Verif.Props.Resource.C29_half_false",
    "Verif.Props.Resource.C29_abort_false",
    "Verif.Props.Resource.C29_text_false",
    "Verif.Props.Resource.C29_builtin"
   ],
   "note": "Every well-formed resource of up to 255 records, and every built-in one, is decoded exactly, served and freed; up to 256 bytes of anything decode without an overrun. The rest is false of the code: C29_overrun_false, C29_half_false, C29_abort_false, C29_text_false."
  },
  {
   "property": "C30",
   "status": "partial",
   "theorems": [
    "Verif.Props.Resource.C30_below_partial",
    "Verif.Props.Resource.C30_itself_partial",
    "Verif.Props.Resource.C30_glue_false",
    "Verif.Props.Resource.C30_case_false"
   ],
   "note": "Proved for every well-formed resource, name and type, where names of name servers in the zone have ordinary characters and 'in the zone' is as the query is spelled. False otherwise: C30_glue_false, C30_case_false."
  },
  {
   "property": "C31",
   "status": "partial",
   "theorems": [
    "Verif.Props.Ns.C31_sources",
    "Verif.Props.Ns.C31_dropped",
    "Verif.Props.Ns.C31_packet_partial",
    "Verif.Props.Ns.C31_network",
    "Verif.Props.Ns.C31_after",
    "Verif.Props.Ns.C31_history_partial",
    "Verif.Props.Ns.C31_overrun_false",
    "Verif.Props.Pool.C34_resolve"
   ],
   "note": "The source of every query is unique (C31_sources), and the code follows it for every packet, client and reachable cache (C31_packet_partial, C31_after, C31_history_partial). False of the code for long names below _synth, where a buffer is overrun (C31_overrun_false); these and the names of C32_abort_false and C46_overrun_false are left out. An unsynced chain: C34_resolve."
  },
  {
   "property": "C32",
   "status": "partial",
   "theorems": [
    "Verif.Props.Cache.C32_history_partial",
    "Verif.Props.Cache.C32_hit",
    "Verif.Props.Cache.C32_unclean",
    "Verif.Props.Cache.C32_abort_false"
   ],
   "note": "Proved for all histories on any clock, over all names from packets but those of the form '_x.y', on which a lookup aborts: C32_abort_false."
  },
  {
   "property": "C33",
   "status": "proved",
   "theorems": [
    "Verif.Props.HMap.C33_history",
    "Verif.Props.HMap.C33_unique",
    "Verif.Props.HMap.C33_tables"
   ],
   "note": "Refinement of the whole table (C33_history) for any lawful hash and equality; C33_tables shows that all five pairs in use are lawful; C33_unique that the dictionary determines the results."
  },
  {
   "property": "C34",
   "status": "partial",
   "theorems": [
    "Verif.Props.Pool.C34_once_partial",
    "Verif.Props.Pool.C34_distinct",
    "Verif.Props.Pool.C34_only_asked",
    "Verif.Props.Pool.C34_resolve",
    "Verif.Props.Pool.C34_only_resolve",
    "Verif.Props.Pool.C34_lost",
    "Verif.Props.Pool.C34_deadline",
    "Verif.Props.Pool.C34_answered",
    "Verif.Props.Pool.C34_pending_never",
    "Verif.Props.Pool.C34_both",
    "Verif.Props.Pool.C34_late",
    "Verif.Props.Pool.C34_unsent"
   ],
   "note": "For every schedule: at most one callback, and none lost: a request is called back once or still held where it was put (C34_once_partial, C34_distinct, C34_only_asked, C34_resolve, C34_only_resolve); called back on loss of its peer, at the deadline, by a valid proof (C34_lost, C34_deadline, C34_answered). The full claim is false: pending requests are never called back (C34_pending_never); both a callback and an error (C34_both, C34_late); no deadline at connecting peers (C34_unsent)."
  },
  {
   "property": "C35",
   "status": "proved",
   "theorems": [
    "Verif.Props.Pool.C35_proven",
    "Verif.Props.Pool.C35_honest_answer_refused",
    "Verif.Props.Pool.C35_other_root"
   ],
   "note": "For every history of events (C35_proven). Side effects of coalescing requests: C35_honest_answer_refused, C35_other_root."
  },
  {
   "property": "C36",
   "status": "proved",
   "theorems": [
    "Verif.Props.Framing.C36_stream",
    "Verif.Props.Framing.C36_split",
    "Verif.Props.Framing.C36_bad",
    "Verif.Props.Framing.C36_buffer",
    "Verif.Props.Framing.C36_defined"
   ],
   "note": "Refinement of the reader to a cutting of the whole stream, for every splitting into reads and every message handler (C36_stream, C36_split); bad magic or size ends the connection (C36_bad); buffer bound (C36_buffer); no undefined behaviour of its own (C36_defined)."
  },
  {
   "property": "C37",
   "status": "proved",
   "theorems": [
    "Verif.Props.Brontide.C37_split",
    "Verif.Props.Brontide.C37_initiator",
    "Verif.Props.Brontide.C37_responder",
    "Verif.Props.Brontide.C37_bad"
   ],
   "note": "Over arbitrary primitives and hosts; a failing write of the initiator's or the host's closing may end the session early (Cut)."
  },
  {
   "property": "C38",
   "status": "proved",
   "theorems": [
    "Verif.Props.Brontide.C38_sealed",
    "Verif.Props.Brontide.C38_opened",
    "Verif.Props.Brontide.C38_distinct",
    "Verif.Props.Brontide.C38_rotation"
   ],
   "note": "The hypothesis that the keys of different rotations differ is the claim's own."
  },
  {
   "property": "C39",
   "status": "proved",
   "theorems": [
    "Verif.Props.Brontide.C39_agree",
    "Verif.Props.Brontide.C39_keys"
   ],
   "note": "Under the laws of the primitives in Spec/Brontide.Laws (decryption inverts encryption, Diffie-Hellman agrees, keys survive their encoding)."
  },
  {
   "property": "C40",
   "status": "partial",
   "theorems": [
    "Verif.Props.Addr.C40_wire_round_trip",
    "Verif.Props.Addr.C40_wire_read",
    "Verif.Props.Addr.C40_socket_round_trip",
    "Verif.Props.Addr.C40_address_round_trip",
    "Verif.Props.Addr.C40_routable_partial",
    "Verif.Props.Addr.C40_loopback_false",
    "Verif.Props.Addr.C40_equality",
    "Verif.Props.Addr.C40_localize"
   ],
   "note": "Wire and socket round trips, equality against hash input and localisation proved. Routable implies valid and outside the reserved blocks the code lists; of the loopback block only 127.0.0.1 is excluded, and multicast not at all (C40_loopback_false)."
  },
  {
   "property": "C41",
   "status": "proved",
   "theorems": [
    "Verif.Props.Addrman.C41_bounded",
    "Verif.Props.Addrman.C41_finds",
    "Verif.Props.Addrman.C41_eviction",
    "Verif.Props.Addrman.C41_pick",
    "Verif.Props.Addrman.C41_ban",
    "Verif.Props.Addrman.C41_banned_pick",
    "Verif.Props.Addrman.C41_early_pick_not_banned",
    "Verif.Props.Addrman.C41_stale"
   ],
   "note": ""
  },
  {
   "property": "C42",
   "status": "partial",
   "theorems": [
    "Verif.Props.Base32.C42_encode",
    "Verif.Props.Base32.C42_encode_size",
    "Verif.Props.Base32.C42_round_trip",
    "Verif.Props.Base32.C42_strict",
    "Verif.Props.Base32.C42_loose_partial",
    "Verif.Props.Base32.C42_loose_hex_partial",
    "Verif.Props.Base32.C42_loose_false",
    "Verif.Props.Base32.C42_unsigned_char_false",
    "Verif.Props.Base32.C42_decode_size",
    "Verif.Props.Base32.C42_total",
    "Verif.Props.Base32.C42_decode_fits"
   ],
   "note": "Encoding, sizes, round trip and strictness with padding proved for all inputs. Without padding demanded a wrong length is accepted (C42_loose_false), and where plain char is unsigned no character is refused (C42_unsigned_char_false); both proved with witnesses."
  },
  {
   "property": "C43",
   "status": "proved",
   "theorems": [
    "Verif.Props.Sig0.C43_recognise",
    "Verif.Props.Sig0.C43_sign",
    "Verif.Props.Sig0.C43_signed_message",
    "Verif.Props.Sig0.C43_plain_unique",
    "Verif.Props.Sig0.C43_sign_twice",
    "Verif.Props.Sig0.C43_digest_ignores_signature",
    "Verif.Props.Sig0.C43_digest_binds",
    "Verif.Props.Sig0.C43_window",
    "Verif.Props.Sig0.C43_verify_safe",
    "Verif.Props.Sig0.C43_verifies"
   ],
   "note": ""
  },
  {
   "property": "C44",
   "status": "proved",
   "theorems": [
    "Verif.Props.RsWorker.C44_defined",
    "Verif.Props.RsWorker.C44_once",
    "Verif.Props.RsWorker.C44_settles",
    "Verif.Props.RsWorker.C44_settled",
    "Verif.Props.RsWorker.C44_exit",
    "Verif.Props.RsWorker.C44_freed"
   ],
   "note": "The resolver library is assumed to answer every request it takes, once, inside ub_wait; progress (C44_settles) is that the threads can get on from every state."
  },
  {
   "property": "C45",
   "status": "proved",
   "theorems": [
    "Verif.Props.Dnssec.C45_signed",
    "Verif.Props.Dnssec.C45_set",
    "Verif.Props.Dnssec.C45_determines",
    "Verif.Props.Dnssec.C45_sig_type",
    "Verif.Props.Dnssec.C45_key_tag",
    "Verif.Props.Dnssec.C45_section",
    "Verif.Props.Dnssec.C45_nothing",
    "Verif.Props.Dnssec.C45_zone",
    "Verif.Props.Dnssec.C45_ds"
   ],
   "note": "For every record set of every type but SIG, for which the code is undefined (C45_sig_type) and which the program never signs. SHA-256, ECDSA and qsort are parameters; qsort is assumed to sort."
  },
  {
   "property": "C46",
   "status": "partial",
   "theorems": [
    "Verif.Props.Resource.C46_label",
    "Verif.Props.Resource.C46_name",
    "Verif.Props.Resource.C46_unique",
    "Verif.Props.Resource.C46_safe_partial",
    "Verif.Props.Resource.C46_abort_false",
    "Verif.Props.Resource.C46_overrun_false"
   ],
   "note": "The round trip is proved for all addresses, safety for all labels except '_' and 1 or 28 characters, where it is false: C46_abort_false, C46_overrun_false."
  },
  {
   "property": "C47",
   "status": "partial",
   "theorems": [
    "Verif.Props.Msg.C47_round_trip",
    "Verif.Props.Msg.C47_read_fits",
    "Verif.Props.Msg.C47_safe_partial",
    "Verif.Props.Msg.C47_empty_payload_false",
    "Verif.Props.Msg.C47_size_partial",
    "Verif.Props.Msg.C47_size_false"
   ],
   "note": "Round trip proved for every message this node writes, and every decoded message fits. Memory safety is false: the empty payload of addr, getheaders and headers is read past its end (C47_empty_payload_false); C47_safe_partial shows these are the only cases. The announced size is wrong for lists of 253 or more (C47_size_false)."
  },
  {
   "property": "C48",
   "status": "partial",
   "theorems": [
    "Verif.Props.Bio.C48_varint_roundtrip",
    "Verif.Props.Bio.C48_varint_canonical",
    "Verif.Props.Bio.C48_read_empty_out_of_bounds",
    "Verif.Props.Bio.C48_read_safe_partial",
    "Verif.Props.Bio.C48_size_wrong",
    "Verif.Props.Bio.C48_size_partial"
   ],
   "note": "Round-trip and canonicity proved for all 64-bit values. Memory safety is false on the empty input and the size function is wrong from 253 on: both negations are proved with witnesses, and the _partial theorems give exactly what holds."
  },
  {
   "property": "C49",
   "status": "proved",
   "theorems": [
    "Verif.Props.Pool.C49_vetted",
    "Verif.Props.Pool.C49_chain_valid",
    "Verif.Props.Pool.C49_refused",
    "Verif.Props.Pool.C49_refused_dropped",
    "Verif.Props.Pool.C49_ban"
   ],
   "note": "For every history only vetted batches reach the chain (C49_vetted), so the chain obeys all rules (C49_chain_valid, composed with C05); other batches change nothing and the peer is dropped (C49_refused, C49_refused_dropped); ban on consensus violations (C49_ban)."
  },
  {
   "property": "C50",
   "status": "proved",
   "theorems": [
    "Verif.Props.Tld.C50_lookup",
    "Verif.Props.Tld.C50_unique",
    "Verif.Props.Tld.C50_data"
   ],
   "note": ""
  },
  {
   "property": "C51",
   "status": "proved",
   "theorems": [
    "Verif.Props.PeerList.C51_history",
    "Verif.Props.PeerList.C51_step",
    "Verif.Props.PeerList.C51_sweep"
   ],
   "note": "At the level of pointers, for every history of refills, destructions, releases and timer runs (C51_history, C51_step, C51_sweep)."
  },
  {
   "property": "C52",
   "status": "proved",
   "theorems": [
    "Verif.Props.Chain.C52_valid_header_accepted"
   ],
   "note": ""
  },
  {
   "property": "C53",
   "status": "partial",
   "theorems": [
    "Verif.Props.Store.C53_rules_after_restart_partial",
    "Verif.Props.Store.C53_abort"
   ],
   "note": "False of the code: C53_abort proves that one cheap header aborts a restarted node. C53_rules_after_restart_partial proves the chain rules for every later history the node survives that does not offer the header right below the window."
  },
  {
   "property": "C54",
   "status": "partial",
   "theorems": [
    "Verif.Props.Addr.C54_round_trip",
    "Verif.Props.Addr.C54_safe",
    "Verif.Props.Addr.C54_parsed_wf",
    "Verif.Props.Addr.C54_port_false",
    "Verif.Props.Addr.C54_onion_false"
   ],
   "note": "Round trip and safety proved for every address that libuv prints and every text. Ports out of range are accepted modulo 2^16 and an empty port is 0 (C54_port_false); Tor addresses print as text that parses to something else (C54_onion_false)."
  },
  {
   "property": "C55",
   "status": "proved",
   "theorems": [
    "Verif.Props.Label.C55_count",
    "Verif.Props.Label.C55_label",
    "Verif.Props.Label.C55_suffix",
    "Verif.Props.Label.C55_srv",
    "Verif.Props.Label.C55_tlsa",
    "Verif.Props.Label.C55_smimea",
    "Verif.Props.Label.C55_openpgpkey",
    "Verif.Props.Label.C55_compare",
    "Verif.Props.Label.C55_subdomain"
   ],
   "note": ""
  },
  {
   "property": "C56",
   "status": "proved",
   "theorems": [
    "Verif.Props.Req.C56_records",
    "Verif.Props.Req.C56_all"
   ],
   "note": ""
  },
  {
   "property": "C57",
   "status": "partial",
   "theorems": [
    "Verif.Props.Ns.C57_address_partial",
    "Verif.Props.Ns.C57_names",
    "Verif.Props.Ns.C57_types_false"
   ],
   "note": "The address is the answer for every cache the server can reach (C57_address_partial). False of the code: the denial for IPv6 lists a wrong type (C57_types_false), and the address is not signed."
  },
  {
   "property": "C58",
   "status": "partial",
   "theorems": [
    "Verif.Props.Ns.C58_about_partial",
    "Verif.Props.Ns.C58_only",
    "Verif.Props.Ns.C58_cached_false"
   ],
   "note": "Only loopback clients are told, exactly the items below the name, and nothing is kept (C58_about_partial). False of the code if the cache has an answer for the last label (C58_cached_false)."
  },
  {
   "property": "C59",
   "status": "partial",
   "theorems": [
    "Verif.Props.Pool.C59_safe_partial",
    "Verif.Props.Pool.C59_agent_false",
    "Verif.Props.Pool.C59_time_false",
    "Verif.Props.Pool.C59_empty_false"
   ],
   "note": "For every history either all stays defined or there is an event that brings one of the messages in Provoking (C59_safe_partial). The full claim is false: C59_agent_false, C59_time_false, C59_empty_false."
  },
  {
   "property": "C60",
   "status": "partial",
   "theorems": [
    "Verif.Props.Brontide.C60_defined_partial",
    "Verif.Props.Brontide.C60_false"
   ],
   "note": "Proved for streams whose first 64 bytes decode to a key (C60_defined_partial); C60_false shows what happens otherwise."
  },
  {
   "property": "C61",
   "status": "partial",
   "theorems": [
    "Verif.Props.RsWorker.C61_released_partial",
    "Verif.Props.RsWorker.C61_leak_false",
    "Verif.Props.RsWorker.C61_init_partial",
    "Verif.Props.RsWorker.C61_init_false"
   ],
   "note": "Proved: what is left after release is memory of refused requests (C61_released_partial). False in general: C61_leak_false, C61_init_false."
  },
  {
   "property": "C62",
   "status": "partial",
   "theorems": [
    "Verif.Props.Rs.C62_dropped",
    "Verif.Props.Rs.C62_asks",
    "Verif.Props.Rs.C62_answers",
    "Verif.Props.Rs.C62_authentic",
    "Verif.Props.Rs.C62_marked",
    "Verif.Props.Rs.C62_one_partial",
    "Verif.Props.Rs.C62_silent_false",
    "Verif.Props.Rs.C62_bogus_false"
   ],
   "note": "Exactly one packet, its contents and the AD bit are proved (C62_asks, C62_answers, C62_authentic, C62_marked, C62_one_partial). False: bogus data is handed on (C62_bogus_false); nothing is sent if the library has no result (C62_silent_false)."
  },
  {
   "property": "C63",
   "status": "proved",
   "theorems": [
    "Verif.Props.Sha256.C63_sha256",
    "Verif.Props.Sha256.C63_oneshot"
   ],
   "note": "Against FIPS 180-4 with constants computed from the primes; little-endian machine."
  },
  {
   "property": "C64",
   "status": "proved",
   "theorems": [
    "Verif.Props.Sha256.C64_hmac",
    "Verif.Props.Sha256.C64_hkdf"
   ],
   "note": "Against RFC 2104 and RFC 5869 over C63's SHA-256."
  },
  {
   "property": "C65",
   "status": "proved",
   "theorems": [
    "Verif.Props.Aead.C65_chacha20",
    "Verif.Props.Aead.C65_inverse"
   ],
   "note": "Against RFC 8439, 2.3 and 2.4, with a 64-bit counter as in the code."
  },
  {
   "property": "C66",
   "status": "proved",
   "theorems": [
    "Verif.Props.Aead.C66_poly1305",
    "Verif.Props.Aead.C66_verify"
   ],
   "note": "The 64-bit code with the compiler's 128-bit integers; the 32-bit and MSVC variants are not modelled."
  },
  {
   "property": "C67",
   "status": "proved",
   "theorems": [
    "Verif.Props.Aead.C67_seal",
    "Verif.Props.Aead.C67_open",
    "Verif.Props.Aead.C67_roundtrip",
    "Verif.Props.Aead.C67_laws",
    "Verif.Props.Aead.C67_schedule",
    "Verif.Props.Aead.C67_transport"
   ],
   "note": "C67_transport restates C39_agree with the actual hash and cipher; only the curve stays a parameter."
  },
  {
   "property": "C68",
   "status": "proved",
   "theorems": [
    "Verif.Props.Blake2b.C68_blake2b",
    "Verif.Props.Blake2b.C68_sizes"
   ],
   "note": "Without the keyed variant, which is not called."
  },
  {
   "property": "C69",
   "status": "proved",
   "theorems": [
    "Verif.Props.Sha3.C69_sha3",
    "Verif.Props.Sha3.C69_name"
   ],
   "note": "Against FIPS 202 with round constants from its shift register."
  },
  {
   "property": "C70",
   "status": "proved",
   "theorems": [
    "Verif.Props.BlockHash.C70_block_hash",
    "Verif.Props.BlockHash.C70_pow",
    "Verif.Props.BlockHash.C70_hash_determines_header",
    "Verif.Props.BlockHash.C70_outcome_unique"
   ],
   "note": "The specification of the block hash is written down from the protocol; it yields the published hash of the genesis block (C71)."
  },
  {
   "property": "C71",
   "status": "proved",
   "theorems": [
    "Verif.Props.Networks.C71_start",
    "Verif.Props.Networks.C71_limit"
   ],
   "note": "The hashes are evaluated in the kernel with the modelled BLAKE2b and SHA-3. C71_limit: the least difficulty is that of the genesis block and the limit is its target."
  },
  {
   "property": "C72",
   "status": "partial",
   "theorems": [
    "Verif.Props.Networks.C72_checkpoint",
    "Verif.Props.Networks.C72_rules_partial",
    "Verif.Props.Networks.C72_abort"
   ],
   "note": "False of the code (C72_abort): one header that took no work to make ends a node started with the checkpoint option. C72_checkpoint is full for the loading; C72_rules_partial covers every history that is survived and does not contain the header right below the checkpoint."
  },
  {
   "property": "C73",
   "status": "partial",
   "theorems": [
    "Verif.Props.Ecc.C73_parameters",
    "Verif.Props.Ecc.C73_pubkey_partial",
    "Verif.Props.Ecc.C73_exceptions",
    "Verif.Props.Ecc.C73_wrong"
   ],
   "note": "C73_pubkey_partial covers every key but 0, 1 and n - 1 modulo n. For 1 and n - 1 the claim is false (C73_wrong): the key 1 gets three times the base point and n - 1 none. C73_exceptions says what the rest get. C73_parameters: the base point is on the curve and has the prime order n."
  },
  {
   "property": "C74",
   "status": "partial",
   "theorems": [
    "Verif.Props.Ecc.C74_valid_partial",
    "Verif.Props.Ecc.C74_signs",
    "Verif.Props.Ecc.C74_draw_one",
    "Verif.Props.Ecc.C74_draw_order",
    "Verif.Props.Ecc.C74_second_zero",
    "Verif.Props.Ecc.C74_draw_zero"
   ],
   "note": "C74_valid_partial: valid unless a number drawn is 0 or 1 modulo n or the second half comes out zero. In these cases the claim is false: with 1 drawn (C74_draw_one) or n drawn (C74_draw_order) the signature is never valid, a second half of zero is not rejected (C74_second_zero), and with 0 drawn first a variable is read that has no value (C74_draw_zero). C74_signs says when there is a signature."
  },
  {
   "property": "C75",
   "status": "partial",
   "theorems": [
    "Verif.Props.Anchor.C75_keys",
    "Verif.Props.Anchor.C75_anchor",
    "Verif.Props.Anchor.C75_rrsig_partial"
   ],
   "note": "C75_keys and C75_anchor are the claim about keys and anchor. C75_rrsig_partial needs that no number drawn is 0 or 1 modulo n, and has a signature valid if its second half is not zero; otherwise the claim is false as C74 says."
  },
  {
   "property": "C76",
   "status": "partial",
   "theorems": [
    "Verif.Props.Elligator.C76_map",
    "Verif.Props.Elligator.C76_decode_partial",
    "Verif.Props.Elligator.C76_roundtrip_partial",
    "Verif.Props.Elligator.C76_reach",
    "Verif.Props.Elligator.C76_invert",
    "Verif.Props.Elligator.C76_gap",
    "Verif.Props.Elligator.C76_false",
    "Verif.Props.Elligator.C76_false_key",
    "Verif.Props.Elligator.C76_false_draw"
   ],
   "note": "C76_decode_partial, C76_roundtrip_partial and C76_reach cover all numbers but 0 modulo p. There the claim is false: 64 bytes of zero end the process (C76_false), one zero half yields a key no point has (C76_false_key), and an encoding made with 0 drawn is decoded to another key (C76_false_draw). C76_gap is a family of strings that are refused. C76_invert: the inverse yields preimages only, and all of them."
  },
  {
   "property": "C77",
   "status": "partial",
   "theorems": [
    "Verif.Props.Ec.C77_parameters",
    "Verif.Props.Ec.C77_group",
    "Verif.Props.Ec.C77_privkey",
    "Verif.Props.Ec.C77_draw",
    "Verif.Props.Ec.C77_draws",
    "Verif.Props.Ec.C77_pubkey",
    "Verif.Props.Ec.C77_injective",
    "Verif.Props.Ec.C77_valid",
    "Verif.Props.Ec.C77_ecdh",
    "Verif.Props.Ec.C77_secret",
    "Verif.Props.Ec.C77_owner",
    "Verif.Props.Ec.C77_agree",
    "Verif.Props.Ec.C77_laws_partial",
    "Verif.Props.Ec.C77_transport_partial",
    "Verif.Props.Ec.C77_false"
   ],
   "note": "The claims about keys and secrets are proved in full. C77_laws_partial and C77_transport_partial need that 0 is never drawn for an encoding. That nothing a peer sends ends the process is false (C77_false): 64 bytes of zero do."
  },
  {
   "property": "C78",
   "status": "partial",
   "theorems": [
    "Verif.Props.Ecdsa.C78_verify",
    "Verif.Props.Ecdsa.C78_twin",
    "Verif.Props.Ecdsa.C78_key",
    "Verif.Props.Ecdsa.C78_signs",
    "Verif.Props.Ecdsa.C78_form",
    "Verif.Props.Ecdsa.C78_sign_partial",
    "Verif.Props.Ecdsa.C78_accepts_partial",
    "Verif.Props.Ecdsa.C78_nonce_partial",
    "Verif.Props.Ecdsa.C78_false",
    "Verif.Props.Ecdsa.C78_gap",
    "Verif.Props.Ecdsa.C78_sig0_partial"
   ],
   "note": "The first number of a signature is not compared with 0; validity is proved for the others (C78_gap: a random number with which the signature is refused exists). For digests not below the order the random number is not that of RFC 6979, since the digest is not reduced (C78_false)."
  },
  {
   "property": "C79",
   "status": "proved",
   "theorems": [
    "Verif.Props.SecpHash.C79_sha256",
    "Verif.Props.SecpHash.C79_same",
    "Verif.Props.SecpHash.C79_hmac",
    "Verif.Props.SecpHash.C79_nonce"
   ],
   "note": "Allocation plays no part. The digest is not reduced modulo the order before it enters the generator (C78_false)."
  },
  {
   "property": "C80",
   "status": "proved",
   "theorems": [
    "Verif.Props.Field52.C80_product",
    "Verif.Props.Field52.C80_linear",
    "Verif.Props.Field52.C80_normalize",
    "Verif.Props.Field52.C80_unique",
    "Verif.Props.Field52.C80_compare",
    "Verif.Props.Field52.C80_bytes",
    "Verif.Props.Field52.C80_write",
    "Verif.Props.Field52.C80_storage",
    "Verif.Props.Field52.C80_cmov",
    "Verif.Props.Field52.C80_limit"
   ],
   "note": "For the variant of five words with 128-bit integers. fe_verify allows the magnitude 2048, one more than the theorems; there the claim is false (C80_limit)."
  },
  {
   "property": "C81",
   "status": "partial",
   "theorems": [
    "Verif.Props.Ec52.C81_roots",
    "Verif.Props.Ec52.C81_equal",
    "Verif.Props.Ec52.C81_add",
    "Verif.Props.Ec52.C81_map",
    "Verif.Props.Ec52.C81_invert",
    "Verif.Props.Ec52.C81_keys",
    "Verif.Props.Ec52.C81_decode",
    "Verif.Props.Ec52.C81_decode_partial",
    "Verif.Props.Ec52.C81_encode_partial",
    "Verif.Props.Ec52.C81_safe",
    "Verif.Props.Ec52.C81_false"
   ],
   "note": "C81_encode_partial and C81_decode_partial need numbers that are not 0 modulo p; for 0 the claim is false (C81_false, C76_false_draw). That the loop of the encoder ends for every seed is not proved."
  },
  {
   "property": "C82",
   "status": "partial",
   "theorems": [
    "Verif.Props.Options.C82_options_partial",
    "Verif.Props.Options.C82_exit_partial",
    "Verif.Props.Options.C82_memory_partial",
    "Verif.Props.Options.C82_free_false",
    "Verif.Props.Options.C82_log_false",
    "Verif.Props.Options.C82_unknown_false",
    "Verif.Props.Options.C82_number_false",
    "Verif.Props.Options.C82_forms",
    "Verif.Props.Options.C82_identity",
    "Verif.Props.Options.C82_hex"
   ],
   "note": "Missing because false: after -k the process frees memory it did not allocate (C82_free_false); an unknown or abbreviated long option makes getopt_long read past the table (C82_unknown_false); a number above an int is undefined (C82_number_false); -d as child of the first process ignores the log file (C82_log_false). The theorems on options, exit and memory exclude these."
  },
  {
   "property": "C83",
   "status": "partial",
   "theorems": [
    "Verif.Props.Seeds.C83_seeds_partial",
    "Verif.Props.Seeds.C83_all_partial",
    "Verif.Props.Seeds.C83_bad_false",
    "Verif.Props.Seeds.C83_known_false",
    "Verif.Props.Seeds.C83_agent",
    "Verif.Props.Seeds.C83_size"
   ],
   "note": "That the rest of the list is used after a seed that is refused is false: the start of the next piece is not moved (C83_bad_false for texts that are no addresses, C83_known_false for known ones). C83_seeds_partial has what happens for every text, C83_all_partial the claim for lists of new, distinct addresses."
  },
  {
   "property": "C84",
   "status": "partial",
   "theorems": [
    "Verif.Props.Daemon.C84_start_partial",
    "Verif.Props.Daemon.C84_stop_partial",
    "Verif.Props.Daemon.C84_prefix_false",
    "Verif.Props.Daemon.C84_signal_false",
    "Verif.Props.Daemon.C84_worker_false",
    "Verif.Props.Daemon.C84_pool_false"
   ],
   "note": "False when the start fails before the pool's timer exists (C84_prefix_false: e.g. -x with a directory that does not exist), when the first signal handle (C84_signal_false), the locks or the first handle of the worker (C84_worker_false) or the pool's key (C84_pool_false) cannot be made; Lucky excludes these. Peers and requests under way are not part of this model."
  },
  {
   "property": "C85",
   "status": "proved",
   "theorems": [
    "Verif.Props.Scalar64.C85_product",
    "Verif.Props.Scalar64.C85_field",
    "Verif.Props.Scalar64.C85_unique",
    "Verif.Props.Scalar64.C85_tests",
    "Verif.Props.Scalar64.C85_bytes",
    "Verif.Props.Scalar64.C85_bits",
    "Verif.Props.Scalar64.C85_shift"
   ],
   "note": "For the variant of four words with 128-bit integers, without assembler and without endomorphism. Words are numbers below 2^64."
  },
  {
   "property": "C86",
   "status": "proved",
   "theorems": [
    "Verif.Props.Group52.C86_double",
    "Verif.Props.Group52.C86_add_var",
    "Verif.Props.Group52.C86_add",
    "Verif.Props.Group52.C86_ratio",
    "Verif.Props.Group52.C86_neg",
    "Verif.Props.Group52.C86_affine"
   ],
   "note": "For field elements of five words. What the memory of a result held beforehand matters only when the sum is infinite, and then only for the size of the words."
  },
  {
   "property": "C87",
   "status": "proved",
   "theorems": [
    "Verif.Props.EcmultConst.C87_digits",
    "Verif.Props.EcmultConst.C87_product",
    "Verif.Props.EcmultConst.C87_same",
    "Verif.Props.EcmultConst.C87_secret"
   ],
   "note": "Without endomorphism (the configuration of the build). Uninitialised memory is a parameter."
  },
  {
   "property": "C88",
   "status": "proved",
   "theorems": [
    "Verif.Props.EcmultGen.C88_table",
    "Verif.Props.EcmultGen.C88_product",
    "Verif.Props.EcmultGen.C88_context",
    "Verif.Props.EcmultGen.C88_made",
    "Verif.Props.EcmultGen.C88_pubkey",
    "Verif.Props.EcmultGen.C88_agree"
   ],
   "note": "For the static table, which is the default of the build. The loops that draw the blinding have a bound in the model, after which it yields no context."
  },
  {
   "property": "C89",
   "status": "proved",
   "theorems": [
    "Verif.Props.EcdsaWords.C89_same",
    "Verif.Props.EcdsaWords.C89_blinding",
    "Verif.Props.EcdsaWords.C89_valid",
    "Verif.Props.EcdsaWords.C89_key"
   ],
   "note": "Validity is stated for signatures whose first number is not 0, as in C78 (the gap is C78_gap). The loop for the random number has a bound in the model, after which it yields no signature."
  },
  {
   "property": "C90",
   "status": "proved",
   "theorems": [
    "Verif.Props.Ecmult.C90_digits",
    "Verif.Props.Ecmult.C90_table",
    "Verif.Props.Ecmult.C90_sum",
    "Verif.Props.Ecmult.C90_same",
    "Verif.Props.Ecmult.C90_verify",
    "Verif.Props.Ecmult.C90_accepts"
   ],
   "note": "For the build without endomorphism, which is the default. The exception for a first number 0 is part of the statement (C78_gap has the reason)."
  },
  {
   "property": "C91",
   "status": "proved",
   "theorems": [
    "Verif.Props.EcRecover.C91_recover",
    "Verif.Props.EcRecover.C91_unique",
    "Verif.Props.EcRecover.C91_valid",
    "Verif.Props.EcRecover.C91_verify",
    "Verif.Props.EcRecover.C91_own",
    "Verif.Props.EcRecover.C91_hash",
    "Verif.Props.EcRecover.C91_abort"
   ],
   "note": "On words. The exception for a first number 0 is part of the statement (C78_gap has the reason). The daemon does not call these two functions; they are part of ec.h."
  },
  {
   "property": "C92",
   "status": "partial",
   "theorems": [
    "Verif.Props.Siphash.C92_hash_partial",
    "Verif.Props.Siphash.C92_long",
    "Verif.Props.Siphash.C92_long_false",
    "Verif.Props.Siphash.C92_number",
    "Verif.Props.Siphash.C92_wide"
   ],
   "note": "For messages below 2^35 bytes; C92_long says what is hashed for longer ones and C92_long_false that they all collide. Not called by the daemon."
  },
  {
   "property": "C93",
   "status": "partial",
   "theorems": [
    "Verif.Props.Siphash.C93_total",
    "Verif.Props.Siphash.C93_distinct",
    "Verif.Props.Siphash.C93_names_partial",
    "Verif.Props.Siphash.C93_names_false"
   ],
   "note": "C93_names_false: the texts of 23 and 25 are misspelt."
  },
  {
   "property": "C94",
   "status": "partial",
   "theorems": [
    "Verif.Props.Calendar.C94_date_partial",
    "Verif.Props.Calendar.C94_unique",
    "Verif.Props.Calendar.C94_digits_partial",
    "Verif.Props.Calendar.C94_serial_partial",
    "Verif.Props.Calendar.C94_date_false"
   ],
   "note": "For times before 2^31 seconds; C94_date_false is what happens then."
  },
  {
   "property": "C95",
   "status": "partial",
   "theorems": [
    "Verif.Props.Stub.C95_stub_partial",
    "Verif.Props.Stub.C95_safe",
    "Verif.Props.Stub.C95_one",
    "Verif.Props.Stub.C95_tor_false",
    "Verif.Props.Stub.C95_port_false"
   ],
   "note": "For addresses outside fd87:d87e:eb43::/48 and ports other than 0; C95_tor_false and C95_port_false are what happens there."
  },
  {
   "property": "C96",
   "status": "partial",
   "theorems": [
    "Verif.Props.Random.C96_uniform_partial",
    "Verif.Props.Random.C96_all_partial",
    "Verif.Props.Random.C96_nonce_partial",
    "Verif.Props.Random.C96_choice",
    "Verif.Props.Random.C96_windows_false"
   ],
   "note": "For sources of at least 16 bits; C96_windows_false is about those of 15. C96_choice is complete. The theorems are about one draw of each number, all draws equally likely; the quality of the system's source is outside."
  },
  {
   "property": "C97",
   "status": "partial",
   "theorems": [
    "Verif.Props.BnMore.C97_dec",
    "Verif.Props.BnMore.C97_to_int",
    "Verif.Props.BnMore.C97_bits",
    "Verif.Props.BnMore.C97_mod",
    "Verif.Props.BnMore.C97_pow",
    "Verif.Props.BnMore.C97_rshift_partial",
    "Verif.Props.BnMore.C97_rshift_false",
    "Verif.Props.BnMore.C97_neg_false"
   ],
   "note": "Shifts to the right are proved below 32 bits; above they are wrong (C97_rshift_false). Negation is the complement (C97_neg_false). The rest is full. Conversions from and to text are not modelled."
  },
  {
   "property": "C98",
   "status": "proved",
   "theorems": [
    "Verif.Props.KeyedHash.C98_blake2b",
    "Verif.Props.KeyedHash.C98_key_sizes",
    "Verif.Props.KeyedHash.C98_one_shot",
    "Verif.Props.KeyedHash.C98_refused",
    "Verif.Props.KeyedHash.C98_no_key",
    "Verif.Props.KeyedHash.C98_kmac",
    "Verif.Props.KeyedHash.C98_kmac_sizes",
    "Verif.Props.KeyedHash.C98_keccak"
   ],
   "note": "Full; clearing of memory afterwards is not modelled."
  },
  {
   "property": "C99",
   "status": "partial",
   "theorems": [
    "Verif.Props.RrList.C99_lists_partial",
    "Verif.Props.RrList.C99_unshift_false",
    "Verif.Props.RrList.C99_unshift_empty_false",
    "Verif.Props.RrList.C99_unshift_full_false"
   ],
   "note": "Full for every call but unshift, of which it is false (C99_unshift_false, C99_unshift_empty_false, C99_unshift_full_false)."
  },
  {
   "property": "C100",
   "status": "partial",
   "theorems": [
    "Verif.Props.Sanitize.C100_readable_partial",
    "Verif.Props.Sanitize.C100_bounds",
    "Verif.Props.Sanitize.C100_octets_false",
    "Verif.Props.Sanitize.C100_long_false"
   ],
   "note": "Full for octets below 127 and for the bounds of every name; false of the other octets (C100_octets_false) and of the bound for longer texts (C100_long_false)."
  },
  {
   "property": "C101",
   "status": "partial",
   "theorems": [
    "Verif.Props.BnText.C101_text_partial",
    "Verif.Props.BnText.C101_front_false",
    "Verif.Props.BnText.C101_ff_false",
    "Verif.Props.BnText.C101_zero_false",
    "Verif.Props.BnText.C101_short_false",
    "Verif.Props.BnText.C101_long_false",
    "Verif.Props.BnText.C101_round_false"
   ],
   "note": "Full for texts of a multiple of eight digits and for writing all 128 digits; false otherwise (C101_front_false, C101_ff_false, C101_zero_false, C101_short_false, C101_long_false, C101_round_false). sscanf's %8x is a parameter with the hypothesis Scans."
  },
  {
   "property": "C102",
   "status": "partial",
   "theorems": [
    "Verif.Props.StorePath.C102_names_partial",
    "Verif.Props.StorePath.C102_main_room",
    "Verif.Props.StorePath.C102_overlap_false",
    "Verif.Props.StorePath.C102_reserved_false",
    "Verif.Props.StorePath.C102_distinct"
   ],
   "note": "The lasting name is full. The temporary name needs a C library that copies the argument first (Kind) and a height below 100000000, or the main network (C102_main_room); false without (C102_overlap_false, C102_reserved_false)."
  }
 ]
}