{
 "C48": {
  "status": "partial",
  "note": "Round-trip and canonicity proved for all 64-bit values. Memory safety is false on the empty input and the size function is wrong from 253 on: both negations are proved with witnesses, and the _partial theorems give exactly what holds."
 },
 "C15": {
  "status": "partial",
  "note": "The claim is false of the code for exponents of 35 and above (C15_expand_aliases is the proved counterexample); C15_expand_partial proves it for exponents up to 34, and the compression half is proved for every target."
 },
 "C09": {
  "status": "partial",
  "note": "False of the code: a waiting header that turns out bad makes the call that stored its parent report an error (C09_error_but_stored). The _partial theorem says exactly when that can happen and that otherwise nothing served changes."
 },
 "C10": {
  "status": "partial",
  "note": "False of the code when two waiting headers share a parent (C10_stranded, proved). Proved for histories without such siblings, and full convergence for every linear chain in every arrival order."
 },
 "C20": {
  "status": "partial",
  "note": "One vote per host and the bounds are proved. The offset is the median only when the median is not negative (C20_sign_lost is the proved counterexample), and sample times near the int64 limits overflow (C20_overflow)."
 },
 "C53": {
  "status": "partial",
  "note": "False of the code: C53_abort proves that one cheap header aborts a restarted node. C53_rules_after_restart_partial proves the chain rules for every later history the node survives that does not offer the header right below the window."
 },
 "C42": {
  "status": "partial",
  "note": "Encoding, sizes, round trip and strictness with padding proved for all inputs. Without padding demanded a wrong length is accepted (C42_loose_false), and where plain char is unsigned no character is refused (C42_unsigned_char_false); both proved with witnesses."
 },
 "C40": {
  "status": "partial",
  "note": "Wire and socket round trips, equality against hash input and localisation proved. Routable implies valid and outside the reserved blocks the code lists; of the loopback block only 127.0.0.1 is excluded, and multicast not at all (C40_loopback_false)."
 },
 "C54": {
  "status": "partial",
  "note": "Round trip and safety proved for every address that libuv prints and every text. Ports out of range are accepted modulo 2^16 and an empty port is 0 (C54_port_false); Tor addresses print as text that parses to something else (C54_onion_false)."
 },
 "C47": {
  "status": "partial",
  "note": "Round trip proved for every message this node writes, and every decoded message fits. Memory safety is false: the empty payload of addr, getheaders and headers is read past its end (C47_empty_payload_false); C47_safe_partial shows these are the only cases. The announced size is wrong for lists of 253 or more (C47_size_false)."
 },
 "C22": {
  "status": "partial",
  "note": "Round trip, sizes and the exact set of accepted strings proved. The refusals hold except for a leading dot (C22_leading_dot_false) and the limit, which is 255 characters and so 256 wire bytes (C22_wire_length_false); label bytes 0xff and 0xfe read from the wire are sent as 0 and '.' (C22_bytes_false)."
 },
 "C23": {
  "status": "partial",
  "note": "Every name written stands at its place, over earlier places only, for every sequence of names. This program's reader recovers those of at most ten labels; a longer chain of pointers it refuses (C23_chain_false)."
 },
 "C24": {
  "status": "partial",
  "note": "Proved for every well-formed message whose names, except that of the first question, have at most ten labels, all record types and EDNS; the decoder is safe on all packets and what it yields is valid. Longer names can be written so that this program's reader refuses them (C24_labels_false), and a code above 15 without EDNS is lost (C24_code_false)."
 },
 "C25": {
  "status": "partial",
  "note": "Proved for every message and record the program can hold, compressed or not, except names that start with a dot, for which the buffer is overrun (C25_dot_false). P2P messages are covered by C47_size_partial and C47_size_false."
 },
 "C27": {
  "status": "partial",
  "note": "Proved for every request and every well-formed answer with names of at most ten labels, signed or not. A response that is cut off loses its EDNS data and is not marked as truncated (C27_edns_false); an answer that looks like it ends in a SIG(0) record is damaged by signing (C27_signed_false)."
 },
 "C28": {
  "status": "partial",
  "note": "The exact set of accepted packets is proved, and safety for all packets. The class and the EDNS version are not checked (C28_class_false, C28_version_false), and responses are accepted as requests (C28_response_false)."
 },
 "C45": {
  "status": "proved",
  "note": "For every record set of every type but SIG, for which the code is undefined (C45_sig_type) and which the program never signs. SHA-256, ECDSA and qsort are parameters; qsort is assumed to sort."
 },
 "C29": {
  "status": "partial",
  "note": "Every well-formed resource of up to 255 records, and every built-in one, is decoded exactly, served and freed; up to 256 bytes of anything decode without an overrun. The rest is false of the code: C29_overrun_false, C29_half_false, C29_abort_false, C29_text_false."
 },
 "C30": {
  "status": "partial",
  "note": "Proved for every well-formed resource, name and type, where names of name servers in the zone have ordinary characters and 'in the zone' is as the query is spelled. False otherwise: C30_glue_false, C30_case_false."
 },
 "C46": {
  "status": "partial",
  "note": "The round trip is proved for all addresses, safety for all labels except '_' and 1 or 28 characters, where it is false: C46_abort_false, C46_overrun_false."
 },
 "C32": {
  "status": "partial",
  "note": "Proved for all histories on any clock, over all names from packets but those of the form '_x.y', on which a lookup aborts: C32_abort_false."
 },
 "C31": {
  "status": "partial",
  "note": "The source of every query is unique (C31_sources), and the code follows it for every packet, client and reachable cache (C31_packet_partial, C31_after, C31_history_partial). False of the code for long names below _synth, where a buffer is overrun (C31_overrun_false); these and the names of C32_abort_false and C46_overrun_false are left out. An unsynced chain: C34_resolve.",
  "extra": [
   "Verif.Props.Pool.C34_resolve"
  ]
 },
 "C57": {
  "status": "partial",
  "note": "The address is the answer for every cache the server can reach (C57_address_partial). False of the code: the denial for IPv6 lists a wrong type (C57_types_false), and the address is not signed."
 },
 "C58": {
  "status": "partial",
  "note": "Only loopback clients are told, exactly the items below the name, and nothing is kept (C58_about_partial). False of the code if the cache has an answer for the last label (C58_cached_false)."
 },
 "C33": {
  "status": "proved",
  "note": "Refinement of the whole table (C33_history) for any lawful hash and equality; C33_tables shows that all five pairs in use are lawful; C33_unique that the dictionary determines the results."
 },
 "C36": {
  "status": "proved",
  "note": "Refinement of the reader to a cutting of the whole stream, for every splitting into reads and every message handler (C36_stream, C36_split); bad magic or size ends the connection (C36_bad); buffer bound (C36_buffer); no undefined behaviour of its own (C36_defined)."
 },
 "C51": {
  "status": "proved",
  "note": "At the level of pointers, for every history of refills, destructions, releases and timer runs (C51_history, C51_step, C51_sweep)."
 },
 "C34": {
  "status": "partial",
  "note": "For every schedule: at most one callback, and none lost: a request is called back once or still held where it was put (C34_once_partial, C34_distinct, C34_only_asked, C34_resolve, C34_only_resolve); called back on loss of its peer, at the deadline, by a valid proof (C34_lost, C34_deadline, C34_answered). The full claim is false: pending requests are never called back (C34_pending_never); both a callback and an error (C34_both, C34_late); no deadline at connecting peers (C34_unsent)."
 },
 "C35": {
  "status": "proved",
  "note": "For every history of events (C35_proven). Side effects of coalescing requests: C35_honest_answer_refused, C35_other_root."
 },
 "C49": {
  "status": "proved",
  "note": "For every history only vetted batches reach the chain (C49_vetted), so the chain obeys all rules (C49_chain_valid, composed with C05); other batches change nothing and the peer is dropped (C49_refused, C49_refused_dropped); ban on consensus violations (C49_ban)."
 },
 "C59": {
  "status": "partial",
  "note": "For every history either all stays defined or there is an event that brings one of the messages in Provoking (C59_safe_partial). The full claim is false: C59_agent_false, C59_time_false, C59_empty_false."
 },
 "C37": {
  "status": "proved",
  "note": "Over arbitrary primitives and hosts; a failing write of the initiator's or the host's closing may end the session early (Cut)."
 },
 "C38": {
  "status": "proved",
  "note": "The hypothesis that the keys of different rotations differ is the claim's own."
 },
 "C39": {
  "status": "proved",
  "note": "Under the laws of the primitives in Spec/Brontide.Laws (decryption inverts encryption, Diffie-Hellman agrees, keys survive their encoding)."
 },
 "C60": {
  "status": "partial",
  "note": "Proved for streams whose first 64 bytes decode to a key (C60_defined_partial); C60_false shows what happens otherwise."
 },
 "C44": {
  "status": "proved",
  "note": "The resolver library is assumed to answer every request it takes, once, inside ub_wait; progress (C44_settles) is that the threads can get on from every state."
 },
 "C61": {
  "status": "partial",
  "note": "Proved: what is left after release is memory of refused requests (C61_released_partial). False in general: C61_leak_false, C61_init_false."
 },
 "C62": {
  "status": "partial",
  "note": "Exactly one packet, its contents and the AD bit are proved (C62_asks, C62_answers, C62_authentic, C62_marked, C62_one_partial). False: bogus data is handed on (C62_bogus_false); nothing is sent if the library has no result (C62_silent_false)."
 },
 "C63": {
  "status": "proved",
  "note": "Against FIPS 180-4 with constants computed from the primes; little-endian machine."
 },
 "C64": {
  "status": "proved",
  "note": "Against RFC 2104 and RFC 5869 over C63's SHA-256."
 },
 "C65": {
  "status": "proved",
  "note": "Against RFC 8439, 2.3 and 2.4, with a 64-bit counter as in the code."
 },
 "C66": {
  "status": "proved",
  "note": "The 64-bit code with the compiler's 128-bit integers; the 32-bit and MSVC variants are not modelled."
 },
 "C67": {
  "status": "proved",
  "note": "C67_transport restates C39_agree with the actual hash and cipher; only the curve stays a parameter."
 },
 "C68": {
  "status": "proved",
  "note": "Without the keyed variant, which is not called."
 },
 "C69": {
  "status": "proved",
  "note": "Against FIPS 202 with round constants from its shift register."
 },
 "C70": {
  "status": "proved",
  "note": "The specification of the block hash is written down from the protocol; it yields the published hash of the genesis block (C71)."
 },
 "C71": {
  "status": "proved",
  "note": "The hashes are evaluated in the kernel with the modelled BLAKE2b and SHA-3. C71_limit: the least difficulty is that of the genesis block and the limit is its target."
 },
 "C72": {
  "status": "partial",
  "note": "False of the code (C72_abort): one header that took no work to make ends a node started with the checkpoint option. C72_checkpoint is full for the loading; C72_rules_partial covers every history that is survived and does not contain the header right below the checkpoint."
 },
 "C73": {
  "status": "partial",
  "note": "C73_pubkey_partial covers every key but 0, 1 and n - 1 modulo n. For 1 and n - 1 the claim is false (C73_wrong): the key 1 gets three times the base point and n - 1 none. C73_exceptions says what the rest get. C73_parameters: the base point is on the curve and has the prime order n."
 },
 "C74": {
  "status": "partial",
  "note": "C74_valid_partial: valid unless a number drawn is 0 or 1 modulo n or the second half comes out zero. In these cases the claim is false: with 1 drawn (C74_draw_one) or n drawn (C74_draw_order) the signature is never valid, a second half of zero is not rejected (C74_second_zero), and with 0 drawn first a variable is read that has no value (C74_draw_zero). C74_signs says when there is a signature."
 },
 "C75": {
  "status": "partial",
  "note": "C75_keys and C75_anchor are the claim about keys and anchor. C75_rrsig_partial needs that no number drawn is 0 or 1 modulo n, and has a signature valid if its second half is not zero; otherwise the claim is false as C74 says."
 },
 "C76": {
  "status": "partial",
  "note": "C76_decode_partial, C76_roundtrip_partial and C76_reach cover all numbers but 0 modulo p. There the claim is false: 64 bytes of zero end the process (C76_false), one zero half yields a key no point has (C76_false_key), and an encoding made with 0 drawn is decoded to another key (C76_false_draw). C76_gap is a family of strings that are refused. C76_invert: the inverse yields preimages only, and all of them."
 },
 "C77": {
  "status": "partial",
  "note": "The claims about keys and secrets are proved in full. C77_laws_partial and C77_transport_partial need that 0 is never drawn for an encoding. That nothing a peer sends ends the process is false (C77_false): 64 bytes of zero do."
 },
 "C78": {
  "status": "partial",
  "note": "The first number of a signature is not compared with 0; validity is proved for the others (C78_gap: a random number with which the signature is refused exists). For digests not below the order the random number is not that of RFC 6979, since the digest is not reduced (C78_false)."
 },
 "C79": {
  "status": "proved",
  "note": "Allocation plays no part. The digest is not reduced modulo the order before it enters the generator (C78_false)."
 },
 "C80": {
  "status": "proved",
  "note": "For the variant of five words with 128-bit integers. fe_verify allows the magnitude 2048, one more than the theorems; there the claim is false (C80_limit)."
 },
 "C81": {
  "status": "partial",
  "note": "C81_encode_partial and C81_decode_partial need numbers that are not 0 modulo p; for 0 the claim is false (C81_false, C76_false_draw). That the loop of the encoder ends for every seed is not proved."
 },
 "C82": {
  "status": "partial",
  "note": "Missing because false: after -k the process frees memory it did not allocate (C82_free_false); an unknown or abbreviated long option makes getopt_long read past the table (C82_unknown_false); a number above an int is undefined (C82_number_false); -d as child of the first process ignores the log file (C82_log_false). The theorems on options, exit and memory exclude these."
 },
 "C83": {
  "status": "partial",
  "note": "That the rest of the list is used after a seed that is refused is false: the start of the next piece is not moved (C83_bad_false for texts that are no addresses, C83_known_false for known ones). C83_seeds_partial has what happens for every text, C83_all_partial the claim for lists of new, distinct addresses."
 },
 "C84": {
  "status": "partial",
  "note": "False when the start fails before the pool's timer exists (C84_prefix_false: e.g. -x with a directory that does not exist), when the first signal handle (C84_signal_false), the locks or the first handle of the worker (C84_worker_false) or the pool's key (C84_pool_false) cannot be made; Lucky excludes these. Peers and requests under way are not part of this model."
 },
 "C85": {
  "status": "proved",
  "note": "For the variant of four words with 128-bit integers, without assembler and without endomorphism. Words are numbers below 2^64."
 },
 "C86": {
  "status": "proved",
  "note": "For field elements of five words. What the memory of a result held beforehand matters only when the sum is infinite, and then only for the size of the words."
 },
 "C87": {
  "status": "proved",
  "note": "Without endomorphism (the configuration of the build). Uninitialised memory is a parameter."
 },
 "C88": {
  "status": "proved",
  "note": "For the static table, which is the default of the build. The loops that draw the blinding have a bound in the model, after which it yields no context."
 },
 "C89": {
  "status": "proved",
  "note": "Validity is stated for signatures whose first number is not 0, as in C78 (the gap is C78_gap). The loop for the random number has a bound in the model, after which it yields no signature."
 },
 "C90": {
  "status": "proved",
  "note": "For the build without endomorphism, which is the default. The exception for a first number 0 is part of the statement (C78_gap has the reason)."
 },
 "C91": {
  "status": "proved",
  "note": "On words. The exception for a first number 0 is part of the statement (C78_gap has the reason). The daemon does not call these two functions; they are part of ec.h."
 },
 "C92": {
  "status": "partial",
  "note": "For messages below 2^35 bytes; C92_long says what is hashed for longer ones and C92_long_false that they all collide. Not called by the daemon."
 },
 "C93": {
  "status": "partial",
  "note": "C93_names_false: the texts of 23 and 25 are misspelt."
 },
 "C94": {
  "status": "partial",
  "note": "For times before 2^31 seconds; C94_date_false is what happens then."
 },
 "C95": {
  "status": "partial",
  "note": "For addresses outside fd87:d87e:eb43::/48 and ports other than 0; C95_tor_false and C95_port_false are what happens there."
 },
 "C96": {
  "status": "partial",
  "note": "For sources of at least 16 bits; C96_windows_false is about those of 15. C96_choice is complete. The theorems are about one draw of each number, all draws equally likely; the quality of the system's source is outside."
 },
 "C97": {
  "status": "partial",
  "note": "Shifts to the right are proved below 32 bits; above they are wrong (C97_rshift_false). Negation is the complement (C97_neg_false). The rest is full. Conversions from and to text are not modelled."
 },
 "C98": {
  "status": "proved",
  "note": "Full; clearing of memory afterwards is not modelled."
 },
 "C99": {
  "status": "partial",
  "note": "Full for every call but unshift, of which it is false (C99_unshift_false, C99_unshift_empty_false, C99_unshift_full_false)."
 },
 "C100": {
  "status": "partial",
  "note": "Full for octets below 127 and for the bounds of every name; false of the other octets (C100_octets_false) and of the bound for longer texts (C100_long_false)."
 },
 "C101": {
  "status": "partial",
  "note": "Full for texts of a multiple of eight digits and for writing all 128 digits; false otherwise (C101_front_false, C101_ff_false, C101_zero_false, C101_short_false, C101_long_false, C101_round_false). sscanf's %8x is a parameter with the hypothesis Scans."
 },
 "C102": {
  "status": "partial",
  "note": "The lasting name is full. The temporary name needs a C library that copies the argument first (Kind) and a height below 100000000, or the main network (C102_main_room); false without (C102_overlap_false, C102_reserved_false)."
 }
}