{"id": "C01", "title": "A name proof has at most one outcome", "statement": "For one tree root and one name key, two proofs that hsk_proof_verify both accepts report the same outcome: the same existence flag and, if the name exists, the same record data. The only way out is an explicit collision of the 32-byte hash (or a preimage of the all-zero digest), which is exhibited.", "quantifier": "all roots, all keys, all pairs of proofs (any type, any number of nodes, any prefixes, any claimed depth), all hash functions", "why_tests_cant": "the proofs are chosen by an adversarial peer; a test tries a handful of shapes, the claim needs every pair of forged proofs", "anchors": ["src/proof-radix.c:hsk_proof_verify", "src/proof-radix.c:hsk_proof_hash_internal", "src/proof-radix.c:hsk_proof_has", "src/proof-radix.h"]}
{"id": "C02", "title": "An accepted name proof tells the truth about the committed tree", "statement": "If the root in a proof request is the hash of a name tree, then whatever proof is accepted for a key reports exactly what that tree holds at the key (the stored record data, or non-existence), unless a hash collision is exhibited.", "quantifier": "all trees of any shape, all keys, all accepted proofs", "why_tests_cant": "same adversary as C01: every forged proof against every tree", "anchors": ["src/proof-radix.c:hsk_proof_verify"]}
{"id": "C03", "title": "Honest name proofs are always accepted", "statement": "For every well-formed name tree and every key, the proof an honest peer builds by walking the tree (dead end, short, collision or exists) passes hsk_proof_verify and yields the tree's answer.", "quantifier": "all well-formed radix trees with 256-bit keys, all keys, all hash functions", "why_tests_cant": "the set of tree shapes, prefix lengths and bit offsets is unbounded; off-by-one errors show only at particular prefix/depth combinations", "anchors": ["src/proof-radix.c:hsk_proof_verify", "src/proof-radix.c:hsk_proof_has", "src/proof-radix.c:hsk_proof_node_has_prefix"]}
{"id": "C04", "title": "Proof decoding is memory safe and canonical", "statement": "Decoding a proof from any byte string either fails or yields a proof whose depth is at most 256, with at most 256 nodes, prefixes of 1..256 bits and values of at most 668 bytes; no byte outside the input is read and no fixed-size buffer is overrun; and decoding the wire form of any such proof gives that proof back with nothing consumed beyond it.", "quantifier": "all byte strings; all proofs within the limits", "why_tests_cant": "memory safety over every malformed packet cannot be sampled", "anchors": ["src/proof-radix.c:hsk_proof_read", "src/proof-radix.c:read_bitlen", "src/proof-radix.c:hsk_proof_decode", "src/bio.h"]}
{"id": "C05", "title": "Every stored header is valid and linked", "statement": "After any sequence of headers offered to the chain, every header kept in the chain (other than the starting block) has a stored parent whose hash it names, a height one above it, a cumulative work equal to the parent's plus its own, a valid proof of work, a difficulty field equal to the one the retarget rule demands and a timestamp later than the median of its predecessors.", "quantifier": "all sequences of headers (valid or not, in any order, any clock values)", "why_tests_cant": "the property is an invariant over unbounded histories with forks and orphans", "anchors": ["src/chain.c:hsk_chain_add", "src/chain.c:hsk_chain_insert", "src/chain.c:hsk_chain_save", "src/chain.c:hsk_chain_reorganize"]}
{"id": "C06", "title": "The tip is the most-work header and only moves up", "statement": "After any sequence of offered headers, the tip is stored, no stored header has more cumulative work than the tip, and each step leaves the tip unchanged or replaces it by one with strictly more work.", "quantifier": "all histories of offered headers", "why_tests_cant": "depends on every fork/orphan arrival order", "anchors": ["src/chain.c:hsk_chain_insert", "src/chain.c:hsk_chain_save", "src/chain.c:hsk_chain_add"]}
{"id": "C07", "title": "The by-height index is exactly the tip's ancestry", "statement": "At all times, for each height from the starting block to the tip, looking up the height returns the tip's unique ancestor of that height, and looking up any other height returns nothing - also after reorganisations of any depth.", "quantifier": "all histories of offered headers, including reorganisations", "why_tests_cant": "reorganisations of arbitrary depth and repeated flips between forks cannot be enumerated", "anchors": ["src/chain.c:hsk_chain_reorganize", "src/chain.c:hsk_chain_find_fork", "src/chain.c:hsk_chain_get_by_height", "src/chain.c:hsk_chain_get_ancestor"]}
{"id": "C08", "title": "Retarget arithmetic follows the consensus rule", "statement": "The difficulty demanded of the next header equals (work done over the last 144 blocks x 600 s) / (elapsed time clamped to [6h,4d]) converted to a compact target capped at the proof-of-work limit, computed from the median-time suitable blocks at both ends; before height 146 it is the minimum difficulty.", "quantifier": "all chains of headers with arbitrary times and bits", "why_tests_cant": "big-number arithmetic corner cases (zero work, clamps, 256-bit overflow)", "anchors": ["src/chain.c:hsk_chain_retarget", "src/chain.c:hsk_chain_get_target", "src/chain.c:hsk_chain_suitable_block"]}
{"id": "C09", "title": "Rejected headers change nothing that is served", "statement": "A header that is refused (too far in the future, duplicate, bad proof of work, unknown parent, bad difficulty or too old) leaves the stored chain, the height index and the tip exactly as they were.", "quantifier": "all chain states, all headers", "why_tests_cant": "every rejection branch against every state", "anchors": ["src/chain.c:hsk_chain_add", "src/chain.c:hsk_chain_insert"]}
{"id": "C10", "title": "Out-of-order delivery converges", "statement": "Once a header whose children arrived earlier as orphans is accepted, all of those waiting descendants are connected. (False of the code when two orphans share a parent: only the latest is kept in the parent index, the earlier one is stranded; and a later valid header can be reported as an error because a waiting orphan was bad.)", "quantifier": "all arrival orders of any header set", "why_tests_cant": "arrival orders are factorially many", "anchors": ["src/chain.c:hsk_chain_add", "src/chain.c:hsk_chain_resolve_orphan"]}
{"id": "C11", "title": "Orphan memory is bounded", "statement": "However many unconnectable headers are offered, the number of orphans held never exceeds 10001, and the orphan and parent indexes never disagree about what is held beyond that bound.", "quantifier": "all histories of offered headers", "why_tests_cant": "unbounded flooding histories", "anchors": ["src/chain.c:hsk_chain_add", "src/chain.h:HSK_MAX_ORPHANS"]}
{"id": "C12", "title": "Block locators are well formed", "statement": "The locator sent to peers starts at the tip, lists main-chain hashes at strictly decreasing heights, with gap 1 for the first eleven steps and then 2, 4, 8 and so on, ends at the starting block, and fits in its fixed-size buffer.", "quantifier": "all chains of any height below 2^32", "why_tests_cant": "buffer bound and termination for every height", "anchors": ["src/chain.c:hsk_chain_get_locator", "src/msg.h"]}
{"id": "C13", "title": "Names are resolved against a sufficiently buried root", "statement": "The tree root used for resolution always belongs to a main-chain block at most 11 below the tip, that block always exists, and under the network rule that the committed root only changes one block after each multiple of 36, the root used was first committed in a block with at least 12 confirmations; the root used does not change while the tip moves within the burial window.", "quantifier": "all chain states", "why_tests_cant": "all heights modulo the interval and short chains", "anchors": ["src/chain.c:hsk_chain_safe_root"]}
{"id": "C14", "title": "Header wire format round-trips", "statement": "A header serialised and read back is the same header; the wire form is always exactly 236 bytes; reading consumes exactly 236 bytes and fails on anything shorter without touching memory outside the input.", "quantifier": "all headers, all byte strings", "why_tests_cant": "all field values and all truncation points", "anchors": ["src/header.c:hsk_header_read", "src/header.c:hsk_header_write", "src/header.c:hsk_header_size"]}
{"id": "C15", "title": "Compact difficulty conversion is faithful", "statement": "Expanding a compact difficulty gives mantissa x 256^(exponent-3); compressing that again gives the same canonical compact value, the compressed value never exceeds the original target and is within the 23-bit mantissa precision; negative and zero encodings are rejected. (False of the code for exponents of 35 and above: these alias smaller exponents instead of being rejected.)", "quantifier": "all 32-bit compact values, all 256-bit targets", "why_tests_cant": "2^32 and 2^256 cases", "anchors": ["src/header.c:hsk_pow_to_target", "src/header.c:hsk_pow_to_bits"]}
{"id": "C16", "title": "Chain work is exact", "statement": "The work of a header is floor(2^256/(target+1)) and cumulative work is the exact sum modulo 2^256, where the multi-word big-number routines used to compute it (add, sub, mul, div, compare, increment) agree with integer arithmetic.", "quantifier": "all big-number operands, all compact difficulties", "why_tests_cant": "carry/borrow chains over all word patterns", "anchors": ["src/header.c:hsk_header_get_proof", "src/header.c:hsk_header_calc_work", "src/bn.c"]}
{"id": "C17", "title": "Proof of work check compares the header hash with the target", "statement": "A header passes the proof-of-work check iff its hash read as a big-endian integer is at most the target expanded from its difficulty field; the hashed preimage determines every header field that matters (two headers with the same hash input agree on all fields).", "quantifier": "all headers", "why_tests_cant": "all field values", "anchors": ["src/header.c:hsk_header_verify_pow", "src/header.c:hsk_header_cache", "src/header.c:hsk_header_to_sub", "src/header.c:hsk_header_to_pre"]}
{"id": "C18", "title": "Saved chain state reloads to the same chain", "statement": "Writing the checkpoint file and reading it back in a fresh process restores the same height window of headers with the same hashes and cumulative work, and a file that is too short or of the wrong network or version is ignored without changing the chain.", "quantifier": "all chains that trigger a save; all file contents", "why_tests_cant": "all file contents, all chains", "anchors": ["src/store.c:hsk_store_write", "src/store.c:hsk_store_read", "src/store.c:hsk_store_inject_checkpoint"]}
{"id": "C19", "title": "A crash while saving never loses the previous state", "statement": "If the process stops after any prefix of the file-system operations of a save, the checkpoint file read at the next start is either the complete old one or the complete new one.", "quantifier": "all crash points, all old and new contents", "why_tests_cant": "crash points between system calls", "anchors": ["src/store.c:hsk_store_write"]}
{"id": "C20", "title": "Network time adjustment is bounded and takes one vote per host", "statement": "Each peer address contributes at most one sample, at most 200 samples are kept, samples stay sorted, and the adjusted clock differs from the system clock by less than 70 minutes and by the median of the samples. (False of the code: the sign of a negative median is lost, so peers that are behind move the clock forward.)", "quantifier": "all sequences of peer time samples", "why_tests_cant": "all histories of samples", "anchors": ["src/timedata.c:hsk_timedata_add", "src/timedata.c:hsk_timedata_now"]}
{"id": "C21", "title": "DNS name parsing is safe on every packet", "statement": "Parsing a possibly compressed name at any position of any packet terminates, reads no byte outside the packet, never writes more than 256 bytes to the output buffer, follows at most 10 pointers, and consumes a prefix of the input.", "quantifier": "all packets, all positions", "why_tests_cant": "pointer loops and every truncated or hostile packet", "anchors": ["src/dns.c:hsk_dns_name_parse", "src/dns.c:hsk_dns_name_read_size", "src/dns.c:hsk_dns_name_read"]}
{"id": "C22", "title": "DNS names round-trip", "statement": "Serialising a valid name and parsing the bytes gives back the same name; the reported size equals the bytes written; invalid names (empty labels, labels over 63, more than 255 wire bytes, missing final dot) are refused.", "quantifier": "all character strings", "why_tests_cant": "all label structures and lengths up to the limits", "anchors": ["src/dns.c:hsk_dns_name_serialize", "src/dns.c:hsk_dns_name_write", "src/dns.c:hsk_dns_name_verify", "src/dns.c:hsk_dns_name_parse"]}
{"id": "C23", "title": "DNS name compression preserves names", "statement": "For any sequence of names written into one message with the compression table, every emitted pointer goes to an earlier offset in the message whose expansion is the intended suffix, so that a reader recovers each name (up to the parser's limit of 10 pointers; the code can emit longer chains, so the unconditional claim is false).", "quantifier": "all sequences of names and starting offsets", "why_tests_cant": "the table evolves over the whole message; every sequence of names matters", "anchors": ["src/dns.c:hsk_dns_name_serialize", "src/dns.c:hsk_dns_name_parse", "src/dns.c:hsk_dns_cmp_t"]}
{"id": "C24", "title": "DNS messages round-trip", "statement": "Encoding a well-formed message and decoding it gives back the message (header, question, all sections, all record types, EDNS).", "quantifier": "all well-formed messages", "why_tests_cant": "all combinations of sections, record types and contents", "anchors": ["src/dns.c:hsk_dns_msg_write", "src/dns.c:hsk_dns_msg_read", "src/dns.c:hsk_dns_rr_write", "src/dns.c:hsk_dns_rr_read", "src/dns.c:hsk_dns_rd_write", "src/dns.c:hsk_dns_rd_read"]}
{"id": "C25", "title": "Two-pass encoding never overruns its buffer", "statement": "The size computed by the dry-run pass of every encoder (names, records, messages, P2P messages) is never less than the number of bytes the writing pass stores, and equals it when names are not compressed; so the buffer allocated from it is never overrun.", "quantifier": "all messages", "why_tests_cant": "the buffer is allocated from the dry run, so one miscounted branch is a heap overflow", "anchors": ["src/dns.c:hsk_dns_msg_size", "src/dns.c:hsk_dns_msg_encode", "src/msg.c:hsk_msg_size", "src/bio.h"]}
{"id": "C26", "title": "Truncation yields a valid shorter message", "statement": "Truncating a response to the client's limit yields at most that many bytes, made of a prefix of whole records of the original with correct section counts and the same id and question; a message already within the limit is unchanged.", "quantifier": "all messages, all limits", "why_tests_cant": "every cut position relative to every record boundary", "anchors": ["src/dns.c:hsk_dns_msg_truncate"]}
{"id": "C27", "title": "Responses match the request", "statement": "Every finalised response carries the request's id, is marked as a response, echoes the request's question when it is presentable, carries EDNS exactly when the client did, and is at most the client's advertised size (clamped to 512..4096).", "quantifier": "all requests, all resolver results", "why_tests_cant": "every request/response combination", "anchors": ["src/req.c:hsk_dns_req_create", "src/req.c:hsk_dns_msg_finalize"]}
{"id": "C28", "title": "Only well-formed queries are answered", "statement": "A packet is accepted as a request only if it decodes as a DNS message with opcode QUERY, NOERROR, exactly one question and no answer or authority records, an allowed class, and EDNS version 0; everything else is dropped.", "quantifier": "all byte strings", "why_tests_cant": "all malformed packets", "anchors": ["src/req.c:hsk_dns_req_create"]}
{"id": "C29", "title": "Resource records decode safely", "statement": "Decoding the on-chain resource of any name never overruns its 255-entry table, never leaves a half-built record, and never aborts the process. (False of the code: record read errors are ignored and the record count is unbounded.)", "quantifier": "all byte strings of at most 512 bytes taken from the chain", "why_tests_cant": "the bytes are chosen by whoever owns the name", "anchors": ["src/resource.c:hsk_resource_decode", "src/resource.c:hsk_record_read"]}
{"id": "C30", "title": "Referrals reflect the on-chain resource", "statement": "For a name with nameserver records the response to a query below the name is a referral listing exactly the NS targets of the resource, with glue only for in-zone targets and DS records if present; a query for the name itself for NS/DS/TXT is answered from the resource; otherwise the answer is an empty NOERROR with the proper denial record.", "quantifier": "all resources, all query names and types", "why_tests_cant": "the product of resource contents and query forms", "anchors": ["src/resource.c:hsk_resource_to_dns", "src/resource.c:hsk_resource_to_ns", "src/resource.c:hsk_resource_to_glue", "src/resource.c:hsk_resource_to_ds"]}
{"id": "C31", "title": "Resolution decisions are total and ordered", "statement": "Every accepted query is answered by exactly one of: cache, HS-class info (local only), root zone data, synthesised address, refusal for reserved TLDs, ICANN fallback, proof-backed resource, NXDOMAIN, SERVFAIL; reserved TLDs never reach the network and an unsynced chain never yields an answer from the tree.", "quantifier": "all queries and chain/cache states", "why_tests_cant": "all branches of the dispatch under all inputs", "anchors": ["src/ns.c:hsk_ns_onrecv", "src/ns.c:hsk_ns_respond", "src/ns.c:after_resolve", "src/resource.c:hsk_resource_is_ptr"]}
{"id": "C32", "title": "The response cache never lies", "statement": "A cache lookup returns only bytes that were inserted for the same cache key (same name case-insensitively and type, or same TLD for referrals) less than six hours earlier; the cache never holds more than 2000 entries.", "quantifier": "all sequences of inserts and lookups with any clock", "why_tests_cant": "unbounded histories", "anchors": ["src/cache.c:hsk_cache_insert_data", "src/cache.c:hsk_cache_get_data", "src/cache.c:hsk_cache_key_set", "src/cache.c:hsk_cache_key_equal"]}
{"id": "C33", "title": "The hash table behaves as a finite map", "statement": "For any sequence of set, get, has, del, size, iteration and clear operations that never has 2^30 keys present at once, the hash table returns what a mathematical finite map would, through any number of resizes, tombstones and collisions, every probe terminates, and an insertion refused for lack of memory changes nothing. The hash and equality functions the program makes its tables with are compatible.", "quantifier": "all operation sequences, all hash functions, all equality-compatible keys", "why_tests_cant": "probe sequences, tombstone reuse and in-place rehash depend on the whole history", "anchors": ["src/map.c:hsk_map_put", "src/map.c:hsk_map_lookup", "src/map.c:hsk_map_resize", "src/map.c:hsk_map_delete"]}
{"id": "C34", "title": "Each name lookup is answered exactly once", "statement": "Every resolve call accepted by the pool invokes its callback exactly once: with the proven data, with non-existence, or with an error or timeout - under every schedule of proofs, peer disconnections and timer ticks. (Partial: a lookup issued with no usable peer is never retried, and a synchronous write failure both calls back and returns an error.)", "quantifier": "all schedules of resolve calls, proof messages, peer failures and timer ticks", "why_tests_cant": "schedules are unbounded", "anchors": ["src/pool.c:hsk_pool_resolve", "src/pool.c:hsk_peer_handle_proof", "src/pool.c:hsk_pool_timer", "src/pool.c:hsk_peer_destroy"]}
{"id": "C35", "title": "A proof answers only the lookup it was requested for", "statement": "A callback receives data only from a proof message whose key and root equal those of an outstanding request made to that same peer, verified against that root.", "quantifier": "all message sequences from all peers", "why_tests_cant": "hostile peers may send any proof at any time", "anchors": ["src/pool.c:hsk_peer_handle_proof", "src/pool.c:hsk_pool_resolve"]}
{"id": "C36", "title": "P2P framing is independent of packet boundaries", "statement": "Feeding the byte stream of a peer in any split gives the same sequence of parsed messages and the same final state; a bad magic or oversize length stops the connection; the buffer never exceeds the declared size.", "quantifier": "all byte streams, all splittings", "why_tests_cant": "TCP segmentation is arbitrary", "anchors": ["src/pool.c:hsk_peer_on_read", "src/pool.c:hsk_peer_parse", "src/pool.c:hsk_peer_parse_hdr"]}
{"id": "C37", "title": "Encrypted transport framing is independent of packet boundaries", "statement": "Feeding ciphertext to the encrypted transport in any split delivers the same plaintext messages; payloads are delivered only after their tag verified; after a bad tag nothing more is delivered.", "quantifier": "all byte streams, all splittings", "why_tests_cant": "TCP segmentation is arbitrary", "anchors": ["src/brontide.c:hsk_brontide_on_read", "src/brontide.c:hsk_brontide_parse"]}
{"id": "C38", "title": "Cipher nonces are never reused under one key", "statement": "In any sequence of encryptions by one cipher state, the (key, nonce) pairs used are pairwise distinct as long as the key-rotation function does not cycle; both directions rotate after the same 1000 messages so the two ends stay in step.", "quantifier": "all message sequences of any length", "why_tests_cant": "rotation happens only every 1000 messages; unbounded sessions", "anchors": ["src/brontide.c:hsk_cs_encrypt", "src/brontide.c:hsk_cs_decrypt", "src/brontide.c:hsk_cs_rotate_key", "src/brontide.c:hsk_brontide_write"]}
{"id": "C39", "title": "Honest handshakes agree", "statement": "If initiator and responder run the three-act handshake over an unmodified channel, both accept, derive matching send/receive keys, the responder learns the initiator's static key, and whatever either then sends is delivered intact to the other.", "quantifier": "all key pairs, all message sequences", "why_tests_cant": "relies on matching transcript hashing in every act", "anchors": ["src/brontide.c:hsk_brontide_gen_act_one", "src/brontide.c:hsk_brontide_recv_act_one", "src/brontide.c:hsk_brontide_split"]}
{"id": "C40", "title": "Address handling is consistent", "statement": "Network addresses round-trip through the wire format and through the socket form; an address is classed as routable only if it is valid and in none of the reserved ranges; address equality matches the address hash.", "quantifier": "all addresses", "why_tests_cant": "2^288 addresses", "anchors": ["src/addr.c:hsk_netaddr_read", "src/addr.c:hsk_netaddr_write", "src/addr.c:hsk_addr_is_routable", "src/addr.c:hsk_addr_to_sa", "src/addr.c:hsk_addr_from_sa"]}
{"id": "C41", "title": "The address manager is bounded and bans expire on time", "statement": "The address manager never holds more than 2000 entries or two entries for one address; an address banned at time t is reported banned until t+24h and not after; an address picked for connection is known, not removed, not already connected, valid and offers the network service.", "quantifier": "all sequences of operations, clocks and random values", "why_tests_cant": "histories with arbitrary eviction choices", "anchors": ["src/addrmgr.c:hsk_addrman_add_entry", "src/addrmgr.c:hsk_addrman_alloc_entry", "src/addrmgr.c:hsk_addrman_is_banned", "src/addrmgr.c:hsk_addrman_pick"]}
{"id": "C42", "title": "Base32 is a faithful codec", "statement": "Decoding the base32 text of any bytes returns the bytes; the announced sizes match what is written; text with characters outside the alphabet or wrong length is refused.", "quantifier": "all byte strings, both alphabets", "why_tests_cant": "all lengths mod 5 and all values", "anchors": ["src/base32.c:hsk_base32_encode", "src/base32.c:hsk_base32_decode", "src/base32.c:hsk_base32_decode_size"]}
{"id": "C43", "title": "SIG(0) signing is recognised by the verifier", "statement": "Signing any DNS message of at least 12 bytes that has fewer than 65535 other additional records yields a message that is 94 bytes longer (or the same length if it already carried a signature record), has one more additional record, is recognised as signed, whose signed digest depends on every byte except the signature bytes, whose validity window is the twelve hours around the signing time (while 32-bit times do not wrap), and signing twice replaces rather than stacks the record.", "quantifier": "all messages, all clocks", "why_tests_cant": "all messages, including ones already signed", "anchors": ["src/sig0.c:hsk_sig0_sign", "src/sig0.c:hsk_sig0_has_sig", "src/sig0.c:hsk_sig0_get_sig", "src/sig0.c:hsk_sig0_sighash"]}
{"id": "C44", "title": "Recursive lookups call back exactly once across threads", "statement": "Under every interleaving of the event loop and the resolver thread, each successfully submitted recursive lookup has its callback invoked exactly once, also across shutdown, and the worker exits only when nothing is pending.", "quantifier": "all interleavings of submit, completion, dispatch and shutdown", "why_tests_cant": "thread interleavings", "anchors": ["src/rs_worker.c:hsk_rs_worker_resolve", "src/rs_worker.c:after_resolve_onthread", "src/rs_worker.c:after_resolve_async", "src/rs_worker.c:hsk_rs_pending_wait", "src/rs_worker.c:hsk_rs_worker_close"]}
{"id": "C45", "title": "DNSSEC signatures cover the canonical record set", "statement": "The bytes signed for a record set depend only on the set of records, not on their order, duplicates or owner-name case, and determine that set; only records of the signed type are covered.", "quantifier": "all record sets of every type but SIG (type 24, which is never signed), their permutations, repetitions and case variants", "why_tests_cant": "all permutations and case variants", "anchors": ["src/dns.c:hsk_dns_sighash", "src/dns.c:hsk_dns_sign_rrset", "src/dns.c:hsk_dns_sign_type"]}
{"id": "C46", "title": "Synthesised address names are decoded back to the address they encode", "statement": "The label built from an IPv4 or IPv6 address for the _synth zone decodes to the same family and address, and arbitrary query labels are decoded without overrunning the buffers. (False of the code for some labels: one-character labels abort and over-long labels overrun.)", "quantifier": "all addresses, all query labels", "why_tests_cant": "2^128 addresses and all hostile labels", "anchors": ["src/resource.c:ip_to_b32", "src/resource.c:pointer_to_ip", "src/ns.c:hsk_ns_onrecv"]}
{"id": "C47", "title": "P2P message payloads round-trip", "statement": "Each P2P message this node writes (version, verack, ping, pong, getaddr, addr, getheaders, headers, sendheaders, getproof) is read back unchanged, and reading any byte string stays within the input and the fixed-size arrays.", "quantifier": "all messages, all byte strings", "why_tests_cant": "all field values and malformed payloads", "anchors": ["src/msg.c:hsk_msg_read", "src/msg.c:hsk_msg_write"]}
{"id": "C48", "title": "Compact integers are safe and canonical", "statement": "Variable-length integers round-trip for every 64-bit value, their reported size is the bytes written, and reading from any input never touches a byte outside it. (False of the code: reading from an empty input reads out of bounds, and the size function returns a truth value.)", "quantifier": "all 64-bit values, all byte strings", "why_tests_cant": "boundary values and truncated inputs", "anchors": ["src/bio.h:read_varint", "src/bio.h:write_varint", "src/bio.h:size_varint"]}
{"id": "C49", "title": "Header batches from peers are vetted before use", "statement": "Of a batch of headers received from a peer, none is offered to the chain unless the whole batch is at most 2000 headers, forms a linked sequence and every header has valid proof of work; the peer is banned on consensus violations.", "quantifier": "all header batches", "why_tests_cant": "all batches", "anchors": ["src/pool.c:hsk_peer_handle_headers"]}
{"id": "C50", "title": "The ICANN fallback list is searched correctly", "statement": "The fallback lookup finds a TLD iff it occurs in the built-in table, ignoring letter case, for every possible label.", "quantifier": "all labels, the whole table", "why_tests_cant": "a binary search over a wrongly ordered table fails only for particular names", "anchors": ["src/ns.c", "src/tld.h"]}
{"id": "C51", "title": "Peer bookkeeping stays consistent", "statement": "Under any sequence of connects, disconnects and removals the peer list, its size counter and the address index describe the same set of peers, without duplicates and within the configured maximum, and list pointers never dangle.", "quantifier": "all histories of peer events", "why_tests_cant": "linked-list surgery over unbounded histories", "anchors": ["src/pool.c:hsk_peer_push", "src/pool.c:hsk_peer_remove", "src/pool.c:hsk_pool_refill"]}
{"id": "C52", "title": "Valid headers are accepted", "statement": "A header that extends a stored header according to the network rules, is dated at most two hours ahead of the clock and is not already held is stored by the call that offers it, and the tip afterwards has at least its work.", "quantifier": "all histories of offered headers, all valid extensions of any stored header (not only of the tip)", "why_tests_cant": "every fork point of every history, and every corner of the rules", "anchors": ["src/chain.c:hsk_chain_add", "src/chain.c:hsk_chain_insert"]}
{"id": "C53", "title": "A node restarted from its checkpoint keeps the chain rules and cannot be crashed", "statement": "After a restart from the checkpoint file every header the node later stores is valid on top of the restored window, the tip has the most work, and no header sent by a peer makes it abort. (The last part is false of the code: a header on top of the first restored header that meets the difficulty it claims for itself fails an assertion.)", "quantifier": "all saved windows, all later histories of offered headers", "why_tests_cant": "all histories before and after the restart", "anchors": ["src/store.c:hsk_store_inject_checkpoint", "src/chain.c:hsk_chain_get_target", "src/chain.c:hsk_chain_suitable_block"]}
{"id": "C54", "title": "Addresses as text are safe and round-trip", "statement": "Printing an address with its key, host and port and parsing the text gives the same address; parsing any text touches only its buffers and yields a well-formed address or a refusal; a port that is not a number up to 65535 is refused. (The last part is false of the code, and Tor addresses do not come back.)", "quantifier": "all addresses, all texts", "why_tests_cant": "all strings", "anchors": ["src/addr.c:hsk_addr_to_full", "src/addr.c:hsk_addr_to_string", "src/addr.c:hsk_addr_from_string"]}
{"id": "C55", "title": "Names are taken apart into their labels", "statement": "For every valid name, counting its labels, taking a label from either end, and taking the last labels give what its list of labels says; a name is recognised as that of a service, TLSA, SMIMEA or OPENPGPKEY record exactly if its labels have the standard form; comparison ignores case and one final dot; a name is below another exactly if the labels of that are its last ones.", "quantifier": "all valid names, all label indices", "why_tests_cant": "all names up to 255 characters", "anchors": ["src/dns.c:hsk_dns_label_split", "src/dns.c:hsk_dns_label_get", "src/dns.c:hsk_dns_label_from", "src/dns.c:hsk_dns_label_is_srv", "src/dns.c:hsk_dns_label_is_tlsa", "src/dns.c:hsk_dns_label_is_smimea", "src/dns.c:hsk_dns_label_is_openpgpkey", "src/dns.c:hsk_dns_name_cmp", "src/dns.c:hsk_dns_is_subdomain"]}
{"id": "C56", "title": "DNSSEC records go only to clients that want them", "statement": "A response contains only records of the resolver's answer, in order; to a client that did not set the DO bit no DS, DLV, DNSKEY, RRSIG, NXT, NSEC, NSEC3 or NSEC3PARAM record is sent, unless it asked for that type, or for ANY from the recursive server; a client that did set it gets all records if there is room.", "quantifier": "all requests, all answers", "why_tests_cant": "all combinations of records, types and flags", "anchors": ["src/req.c:hsk_dns_msg_finalize", "src/dns.c:hsk_dns_msg_clean", "src/dns.c:hsk_dns_rrs_clean"]}
{"id": "C57", "title": "Names below _synth stand for addresses", "statement": "Whatever was asked before, the query for a name below \"_synth\" that encodes an IPv4 or IPv6 address is answered with exactly that address, signed, if it asks for its type or for ANY; and for other types with a signed denial that lists the types there are. A name encodes at most one address.", "quantifier": "all names, types, clients and states of the cache", "why_tests_cant": "all addresses and all histories of the cache", "anchors": ["src/ns.c:hsk_ns_onrecv", "src/resource.c:pointer_to_ip", "src/cache.c:hsk_cache_get"]}
{"id": "C58", "title": "Information about the node goes to local clients only", "statement": "Texts of class HS about the chain and the peers are told to clients at a loopback address only, exactly as they are, each item below the name asked for; other clients get no answer. They are never kept in the cache, and no other query is answered with them.", "quantifier": "all clients, names, states of the chain, the peers and the cache", "why_tests_cant": "all client addresses and all states", "anchors": ["src/ns.c:hsk_ns_onrecv", "src/hesiod.c:hsk_hesiod_resolve", "src/addr.c:hsk_addr_is_local"]}
{"id": "C59", "title": "No peer can crash or corrupt the node", "statement": "Whatever bytes peers send, in whatever pieces and order, and whenever they connect, fail or stay silent, handling them accesses no memory out of bounds, uses no peer after its release, fails no assertion and overflows no signed integer. (False of the code: a version message with a 255 character agent, one with a time off the scale, and an empty addr, getheaders or headers message.)", "quantifier": "all histories of connections, data, timers and lookups", "why_tests_cant": "hostile peers may send any bytes in any order; the state space is unbounded", "anchors": ["src/pool.c:hsk_peer_on_read", "src/pool.c:hsk_peer_handle_msg", "src/pool.c:hsk_pool_timer", "src/pool.c:hsk_pool_refill", "src/timedata.c:hsk_timedata_add"]}
{"id": "C60", "title": "A dialled node's bytes cannot corrupt the encrypted transport", "statement": "Whatever bytes the node at the other end of an encrypted connection sends, in whatever pieces, handling them uses no unset memory and fails no assertion. (False of the code: when the 64 bytes sent for the ephemeral key decode to no point, the failure is ignored and an unset key is used.)", "quantifier": "all primitives, keys, byte streams, cuts into reads and hosts", "why_tests_cant": "the bad 64-byte strings are a vanishing fraction of all; splits and hosts are arbitrary", "anchors": ["src/brontide.c:hsk_brontide_recv_act_two", "src/brontide.c:hsk_brontide_on_read", "src/ec.c:hsk_ec_pubkey_from_hash"]}
{"id": "C61", "title": "The recursive worker releases what it allocates", "statement": "When a recursive worker has been released, none of the memory it allocated for lookups is left; and a worker that cannot be made for lack of memory releases just what it had allocated. (False of the code: the memory of a lookup the resolver library refuses is lost, and a failed allocation makes it release a pointer that was never set.)", "quantifier": "all interleavings of submit, completion, dispatch and shutdown, and all failures of allocation", "why_tests_cant": "thread interleavings; refusals by the library are not provoked by tests", "anchors": ["src/rs_worker.c:hsk_rs_worker_resolve", "src/rs_worker.c:hsk_rs_worker_init", "src/rs_worker.c:hsk_rs_worker_uninit", "src/rs_worker.c:hsk_rs_queue_uninit"]}
{"id": "C62", "title": "Recursive clients are told what the resolver library found", "statement": "The recursive server puts every query to the resolver library as it came (but answers ANY with not implemented), and answers it with exactly one packet: the library's code and records, or that the server failed. A packet is marked as authentic only if the library validated the answer and the client wants to know. Data that failed validation is not handed on. (The last is false of the code, and there is no answer when the library reports an error without a result.)", "quantifier": "all packets from clients, results of the library, keys and interleavings of the two threads", "why_tests_cant": "all combinations of flags, packets of the library and thread interleavings", "anchors": ["src/rs.c:hsk_rs_onrecv", "src/rs.c:hsk_rs_respond", "src/rs.c:after_resolve"]}
{"id": "C63", "title": "SHA-256 hashes are right however the message is fed", "statement": "Feeding a message to the SHA-256 routine in any number of pieces of any sizes, at any alignment, yields the digest FIPS 180-4 defines for the whole message, and accesses no memory out of bounds.", "quantifier": "all messages, all ways of cutting them into updates, alignments and initial contents of memory", "why_tests_cant": "test vectors cover a few lengths and cuts; block boundaries, padding and length fields matter for every length", "anchors": ["src/sha256.c:hsk_sha256_init", "src/sha256.c:hsk_sha256_update", "src/sha256.c:hsk_sha256_final", "src/hash.c:hsk_hash_sha256", "src/hash.c:hsk_hash_hash256"]}
{"id": "C64", "title": "Keyed hashes and key derivation are HMAC and HKDF", "statement": "The keyed hash is HMAC-SHA256 of RFC 2104 for keys and messages of every length, and the two keys derived from a secret and a salt are the halves of the 64 bytes HKDF of RFC 5869 yields; no buffer is overrun.", "quantifier": "all keys, messages, secrets, salts and context strings up to 512 bytes", "why_tests_cant": "keys longer than a block, empty inputs and all contents of stack memory", "anchors": ["src/hash.c:hsk_hash_sha256_hmac", "src/hash.c:hsk_hash_hkdf"]}
{"id": "C65", "title": "The stream cipher is ChaCha20", "statement": "With a key, a nonce and any initial block counter, texts encrypted one after another, of any lengths, come out as ChaCha20 of RFC 8439 encrypts the whole, each output as long as its input; decrypting gives the text back; no memory is accessed out of bounds.", "quantifier": "all keys, nonces, counters, texts and ways of cutting them, and initial contents of the context", "why_tests_cant": "key stream left over between calls, block boundaries and counters depend on every combination of lengths", "anchors": ["src/chacha20/chacha20.c:hsk_chacha20_setup", "src/chacha20/chacha20.c:hsk_chacha20_block", "src/chacha20/chacha20.c:hsk_chacha20_encrypt"]}
{"id": "C66", "title": "The authenticator is Poly1305", "statement": "However a message is cut into updates, the tag is the one RFC 8439 defines for it: the polynomial modulo 2^130 - 5 in the clamped key plus the second half of the key. Two tags pass the comparison exactly if they are equal.", "quantifier": "all one-time keys, messages and cuts, all pairs of tags", "why_tests_cant": "carries between the limbs of the accumulator go wrong, if at all, for a tiny fraction of all keys and messages", "anchors": ["src/poly1305/poly1305-64.h:hsk_poly1305_init", "src/poly1305/poly1305-64.h:hsk_poly1305_blocks", "src/poly1305/poly1305-64.h:hsk_poly1305_finish", "src/poly1305/poly1305.c:hsk_poly1305_update", "src/poly1305/poly1305.c:hsk_poly1305_verify"]}
{"id": "C67", "title": "Sealing and opening are the AEAD of RFC 8439", "statement": "Sealing yields the ciphertext and tag of AEAD_CHACHA20_POLY1305, opening with the comparison of tags succeeds exactly if that AEAD decrypts, with the same text; no assertion fails. So hash and cipher have the properties on which the encrypted transport's guarantees rest, and the transport calls them with keys and nonces of the right sizes.", "quantifier": "all keys, nonces, additional data, texts, tags and ways of cutting them into pieces", "why_tests_cant": "all lengths relative to the blocks of 16 and 64 bytes, all tampered tags", "anchors": ["src/aead.c:hsk_aead_setup", "src/aead.c:hsk_aead_aad", "src/aead.c:hsk_aead_encrypt", "src/aead.c:hsk_aead_decrypt", "src/aead.c:hsk_aead_final", "src/brontide.c"]}
{"id": "C68", "title": "BLAKE2b hashes are right however the message is fed", "statement": "Feeding a message to the BLAKE2b routine in any number of pieces of any sizes yields the unkeyed digest RFC 7693 defines for the whole message, for every digest size from 1 to 64 bytes; no assertion fails and no memory is accessed out of bounds. Other digest sizes are refused.", "quantifier": "all messages, all ways of cutting them into updates, all digest sizes", "why_tests_cant": "the routine keeps a full last block back; boundaries at every multiple of the block size and every cut matter", "anchors": ["src/blake2b.c:hsk_blake2b_init", "src/blake2b.c:hsk_blake2b_update", "src/blake2b.c:hsk_blake2b_final", "src/hash.c:hsk_hash_blake2b", "src/hash.c:hsk_hash_blake512"]}
{"id": "C69", "title": "SHA-3 hashes are right however the message is fed", "statement": "Feeding a message to the SHA-3 routine in any number of pieces of any sizes, at any alignment, yields the digest FIPS 202 defines for the whole message, for each of the four sizes; no assertion fails and no memory is accessed out of bounds. The key under which a name is looked up is the SHA3-256 digest of the name.", "quantifier": "all messages, cuts, alignments and the sizes 224, 256, 384 and 512", "why_tests_cant": "padding depends on the length modulo the block size (one byte left is a special case), and cuts and alignment select different code", "anchors": ["src/sha3.c:hsk_sha3_256_init", "src/sha3.c:hsk_sha3_update", "src/sha3.c:hsk_sha3_final", "src/hash.c:hsk_hash_sha3", "src/hash.c:hsk_hash_name"]}
{"id": "C70", "title": "Block hashes are those of the protocol", "statement": "For every header decoded from bytes the hash computed is the block hash of the Handshake protocol, built of BLAKE2b-256, BLAKE2b-512 and SHA3-256, and no assertion fails. The proof-of-work check compares that hash with the target; headers with equal hash and mask are equal unless BLAKE2b has a collision at hand; proofs checked with BLAKE2b-256 have a unique outcome unless it is broken.", "quantifier": "all headers, all proofs, roots and keys", "why_tests_cant": "the hash commits to every field; a field left out would show only for particular pairs of headers", "anchors": ["src/header.c:hsk_header_cache", "src/header.c:hsk_header_pre_encode", "src/header.c:hsk_header_sub_hash", "src/header.c:hsk_header_mask_hash", "src/header.c:hsk_header_commit_hash", "src/header.c:hsk_header_verify_pow"]}
{"id": "C71", "title": "Every network starts from its genesis block", "statement": "On each of the four networks the genesis block built into the program decodes, has the hash published for that network, and is accepted at start without a failed assertion, so that everything promised about the header chain applies to the node.", "quantifier": "the four networks, any clock and any memory alignment", "why_tests_cant": "a test can compare hashes; that the started node meets the assumptions under which the chain's guarantees hold for every later history cannot be tested", "anchors": ["src/genesis.h", "src/constants.h", "src/chain.c:hsk_chain_init_genesis"]}
{"id": "C72", "title": "The built-in checkpoint is a sound start", "statement": "A main network node started with the checkpoint option has the 150 headers built in as its main chain, linked to each other and ending in the published tip, and no assertion fails while they are loaded. Whatever headers peers send afterwards, no assertion fails, no header is lost, and every further header obeys the consensus rules on top of the ones below.", "quantifier": "all clocks, all histories of received headers", "why_tests_cant": "the histories after the start are unbounded and chosen by peers", "anchors": ["src/checkpoints.h", "src/daemon.c:hsk_daemon_open", "src/store.c:hsk_store_inject_checkpoint", "src/chain.c:hsk_chain_add"]}
{"id": "C73", "title": "Public keys are those of the private keys", "statement": "For every 32-byte private key the public key computed is the private key times the base point of the curve P-256, written as two 32-byte coordinates; there is none exactly when that product is the point at infinity. The base point lies on the curve and has the prime order the standard gives. No memory is accessed out of bounds.", "quantifier": "all private keys", "why_tests_cant": "the field arithmetic carries across four 64-bit words, and a lost carry shows for a fraction of about 2^-64 of all keys", "anchors": ["src/ecc.c:hsk_ecc_make_pubkey", "src/ecc.c:EccPoint_mult", "src/ecc.c:vli_modMult_fast", "src/ecc.c:vli_modInv"]}
{"id": "C74", "title": "Signatures are valid", "statement": "For every private key, every 32-byte hash and every sequence of random numbers drawn, a signature the program makes is a valid ECDSA signature of the hash under the public key of the private key, and no variable is read before it has a value.", "quantifier": "all private keys, hashes and sequences of random numbers", "why_tests_cant": "a signature depends on a random number; the cases in which it goes wrong have negligible probability in any test, but are part of the contract", "anchors": ["src/ecc.c:hsk_ecc_sign", "src/ecc.c:vli_modMult", "src/ecc.c:vli_modInv"]}
{"id": "C75", "title": "The answers verify against the trust anchor", "statement": "The trust anchor given to the resolver is the DS record of the key-signing key the root zone publishes. Both keys are those of the private keys built in, and every RRSIG record the program adds carries the tag of the key it was made with and is a valid signature under it, of the SHA-256 hash of the record's own fields and the canonical form of exactly the records it covers.", "quantifier": "all sections and record types, clocks and random numbers", "why_tests_cant": "the records signed come from any name in the tree; a resolver rejects the whole answer if one signature is wrong", "anchors": ["src/constants.h:HSK_TRUST_ANCHOR", "src/dnssec.c:hsk_dnssec_get_ksk", "src/dnssec.c:hsk_dnssec_get_ds", "src/dnssec.c:hsk_dnssec_sign_ksk", "src/dnssec.c:hsk_dnssec_sign_zsk", "src/dns.c:hsk_dns_sign_rrset", "src/rs.c:hsk_rs_inject_options"]}
{"id": "C76", "title": "Keys sent as 64 bytes come back as the same keys", "statement": "Every 64 bytes received in place of a key are decoded to a public key on the curve or refused, and nothing received ends the process. What the encoder makes of a public key, with any random numbers, is decoded to that key, and every pair of numbers that is decoded to a key can be an encoding of it.", "quantifier": "all strings of 64 bytes, all public keys, all random numbers drawn", "why_tests_cant": "the map has three branches with square roots in a field of 2^256 elements, and its exceptional arguments never come up in a test but can be sent by anyone", "anchors": ["src/secp256k1/elligator_impl.h:hsk_secp256k1_ec_pubkey_from_hash", "src/secp256k1/elligator_impl.h:hsk_secp256k1_ec_pubkey_to_hash", "src/secp256k1/elligator_impl.h:shallue_van_de_woestijne_invert", "src/ec.c:hsk_ec_pubkey_from_hash", "src/ec.c:hsk_ec_pubkey_to_hash"]}
{"id": "C77", "title": "Keys and secrets on secp256k1, and the transport over them", "statement": "Private keys are the numbers from 1 to the order of the base point less 1, public keys the compressed forms of points of the curve; the public key of a private key is that multiple of the base point, and different private keys have different ones. Two ends each with the other's public key come to the same secret. With these keys the encrypted transport delivers between honest ends exactly what was written, in order, and nothing a peer sends ends the process.", "quantifier": "all private and public keys, all messages and all ways the stream is cut, all bytes a peer may send", "why_tests_cant": "the claim is about all keys and all byte streams; the transport's theorems rest on it", "anchors": ["src/ec.c:hsk_ec_create_privkey", "src/ec.c:hsk_ec_create_pubkey", "src/ec.c:hsk_ec_verify_pubkey", "src/ec.c:hsk_ec_ecdh", "src/brontide.c:hsk_brontide_recv_act_two"]}
{"id": "C78", "title": "Signed answers are verified under the server's key, and only valid signatures are", "statement": "With a private key the program signs every digest, with a random number that depends only on key and digest as RFC 6979 prescribes; the signature is valid under the public key in the sense of SEC 1 and has the smaller of the two possible second numbers. The program accepts exactly the valid signatures of that form, so that it accepts its own, and not the variant with the other second number. A DNS message it signed is verified with its public key for six hours before and after.", "quantifier": "all private keys, all digests, all messages, all strings of 64 bytes as signatures, all strings as public keys", "why_tests_cant": "there are 2^512 strings that might be signatures, and the exceptional random numbers never come up in a test", "anchors": ["src/ec.c:hsk_ec_sign_msg", "src/ec.c:hsk_ec_verify_msg", "src/sig0.c:hsk_sig0_sign", "src/sig0.c:hsk_sig0_verify", "src/secp256k1/ecdsa_impl.h:hsk_secp256k1_ecdsa_sig_sign", "src/secp256k1/ecdsa_impl.h:hsk_secp256k1_ecdsa_sig_verify", "src/secp256k1/hash_impl.h:hsk_secp256k1_rfc6979_hmac_sha256_generate"]}
{"id": "C79", "title": "The hash functions behind keys and signatures are SHA-256 and HMAC", "statement": "The common secret of a connection is the SHA-256 digest of the point, and the random number of a signature comes from HMAC with SHA-256 as RFC 6979 says: the second implementation of these functions, in the library for the curve, computes the functions of the standards for messages and keys of any length, however the message is cut, whatever was in memory before, without access out of bounds, and so agrees with the program's first implementation.", "quantifier": "all messages, all ways to cut them into writes, all keys, all contents of uninitialised memory, all counts of candidates", "why_tests_cant": "a wrong boundary at a block's end or a dependence on earlier memory shows only for some lengths and states; a wrong random number in a signature goes unnoticed", "anchors": ["src/secp256k1/hash_impl.h:hsk_secp256k1_sha256_write", "src/secp256k1/hash_impl.h:hsk_secp256k1_sha256_finalize", "src/secp256k1/hash_impl.h:hsk_secp256k1_hmac_sha256_initialize", "src/secp256k1/hash_impl.h:hsk_secp256k1_rfc6979_hmac_sha256_generate", "src/secp256k1/secp256k1.c:nonce_function_rfc6979"]}
{"id": "C80", "title": "Arithmetic modulo the curve's prime on machine words is exact", "statement": "Field elements of secp256k1 are kept in five words that may grow before they are reduced. Within the limits the code states for each operation, products, squares, sums, negatives, small multiples, reductions, comparisons, conversions to and from 32 bytes and the compact form, and conditional moves compute exactly the operation on integers modulo the prime: no carry is lost in 64 or 128 bits, and a reduced element has only one representation.", "quantifier": "all words within the stated magnitudes, all strings of 32 bytes", "why_tests_cant": "lost carries occur for a fraction of about 2^-64 of the inputs or less, which random tests do not meet; the worst cases lie at the limits of five words at once", "anchors": ["src/secp256k1/field_5x52_int128_impl.h:hsk_secp256k1_fe_mul_inner", "src/secp256k1/field_5x52_int128_impl.h:hsk_secp256k1_fe_sqr_inner", "src/secp256k1/field_5x52_impl.h:hsk_secp256k1_fe_normalize", "src/secp256k1/field_5x52_impl.h:hsk_secp256k1_fe_normalizes_to_zero", "src/secp256k1/field_5x52_impl.h:hsk_secp256k1_fe_set_b32", "src/secp256k1/field_5x52_impl.h:hsk_secp256k1_fe_to_storage"]}
{"id": "C81", "title": "Keys of the transport are encoded and decoded correctly on machine words", "statement": "The routines that hide public keys in random-looking strings, run on machine words with the normalisations and magnitudes the program uses, agree with the mathematics: inverse and square root, addition of points in all cases, the map to the curve and its inverse, reading and writing keys, and decoding 64 bytes. Encoding a key with random bytes from the deterministic generator yields 64 bytes that are decoded to the key, for all keys and all seeds; it never ends the process.", "quantifier": "all words within the stated magnitudes, all points, all strings of 64 bytes, all keys, all seeds, all numbers of rounds", "why_tests_cant": "a variable that exceeds its magnitude or is compared unnormalised gives wrong results only for rare inputs, and exceptional cases of the addition do not arise by chance", "anchors": ["src/secp256k1/elligator_impl.h:shallue_van_de_woestijne_invert", "src/secp256k1/elligator_impl.h:hsk_secp256k1_ec_pubkey_to_hash", "src/secp256k1/elligator_impl.h:hsk_secp256k1_ec_pubkey_from_hash", "src/secp256k1/group_impl.h:hsk_secp256k1_gej_add_ge", "src/secp256k1/field_impl.h:hsk_secp256k1_fe_sqrt", "src/secp256k1/eckey_impl.h:hsk_secp256k1_eckey_pubkey_parse"]}
{"id": "C82", "title": "The command line means what the help text says", "statement": "Options may be written with a letter or a name, with the argument attached or following; the last of repeated options counts. When all options are acceptable and nothing else is on the line, the node starts with exactly those settings and the stated defaults (the address given to other servers is that of the name server unless set), and its output goes to the log file named. At the first option that is not acceptable the process ends, with status 0 for the version and for help and status 1 otherwise. No text on the command line makes it access memory it does not own, and at the end each block of memory is released once. An identity key is read from 64 hexadecimal digits, and the identity printed is its public key in base 32.", "quantifier": "all lists of arguments, all texts of options, all outcomes of fork", "why_tests_cant": "tests try a few lines; the claim is about all combinations and repetitions of options, all texts, and the release of memory after each", "anchors": ["src/daemon.c:parse_arg", "src/daemon.c:hsk_options_init", "src/daemon.c:hsk_options_uninit", "src/daemon.c:daemonize", "src/daemon.c:print_identity", "src/utils.c:hsk_hex_decode", "src/utils.c:hsk_hex_encode"]}
{"id": "C83", "title": "The seeds a user names are all used", "statement": "Given a list of addresses separated by commas (with or without keys), the node knows afterwards all those that are addresses, in that order, and ignores the empty ones and those that are not; addresses known already do no harm. Nothing is accessed out of bounds whatever the text. A name of the program given by the user is accepted just if it has no slash and the whole fits the version message; the number of connections is between 1 and 1000.", "quantifier": "all texts, all states of the address manager, all clocks and random numbers", "why_tests_cant": "tests use lists of good addresses; what happens to the rest of the list after each kind of refusal at each place needs all lists", "anchors": ["src/pool.c:hsk_pool_set_seeds", "src/pool.c:hsk_pool_set_agent", "src/pool.c:hsk_pool_set_size", "src/addrmgr.c:hsk_addrman_add_addr"]}
{"id": "C84", "title": "Starting and stopping leave nothing behind", "statement": "If a step of the start fails (a port in use, a directory that does not exist, a resolver that cannot be configured, no resources for a handle or thread), the process reports it and ends, with everything allocated until then released once. A node that runs goes on until told to stop; signals may come at any time, also repeatedly while it is stopping. After a signal, when the resolver's thread has ended, every socket, timer, handle and block of memory of the node has been released exactly once, in an order in which nothing released is used.", "quantifier": "all combinations of calls that fail, all options, all sequences of signals and completions", "why_tests_cant": "tests start one node and stop it once; the paths of cleanup after each possible failure, and repeated signals during an unfinished shutdown, are rarely run at all", "anchors": ["src/daemon.c:hsk_daemon_init", "src/daemon.c:hsk_daemon_open", "src/daemon.c:hsk_daemon_close", "src/daemon.c:main", "src/signals.c:hsk_signals_init", "src/rs.c:hsk_rs_open", "src/rs.c:after_worker_stop", "src/rs_worker.c:hsk_rs_worker_init", "src/pool.c:hsk_pool_close", "src/ns.c:hsk_ns_close"]}
{"id": "C85", "title": "Arithmetic modulo the curve's order on machine words is exact", "statement": "Secret keys, signature values and the multipliers of points are kept in four words of 64 bits. Sum, product, square, negative and inverse of two such numbers are those of the residues modulo the order of the base point, and the result is always the number below the order; reading 32 bytes reduces modulo the order and says whether it had to; writing yields the 32 bytes; comparisons, the tests for zero, one, even and above half the order, windows of bits, shifts and the addition of one bit are right. No carry is lost in words of 32, 64 or 128 bits.", "quantifier": "all words (products of any four words by any four words, also those not below the order), all strings of 32 bytes, all windows of up to 32 bits", "why_tests_cant": "a carry lost in the additions over 512 bits shows for about one pair of inputs in 2^64 or fewer; a wrong reduction near the order shows for one number in 2^128", "anchors": ["src/secp256k1/scalar_4x64_impl.h:hsk_secp256k1_scalar_mul", "src/secp256k1/scalar_4x64_impl.h:hsk_secp256k1_scalar_sqr", "src/secp256k1/scalar_4x64_impl.h:hsk_secp256k1_scalar_reduce_512", "src/secp256k1/scalar_4x64_impl.h:hsk_secp256k1_scalar_add", "src/secp256k1/scalar_4x64_impl.h:hsk_secp256k1_scalar_set_b32", "src/secp256k1/scalar_4x64_impl.h:hsk_secp256k1_scalar_negate", "src/secp256k1/scalar_4x64_impl.h:hsk_secp256k1_scalar_get_bits_var", "src/secp256k1/scalar_impl.h:hsk_secp256k1_scalar_inverse"]}
{"id": "C86", "title": "Operations on points in Jacobian coordinates are those of the group", "statement": "Points of the curve are kept as three field elements X, Y, Z of five words each, with a flag for the point at infinity. Doubling, the three additions (with a point in Jacobian coordinates, with an affine point with and without branches), the opposite, the change of Z, the passage from and to affine coordinates and the comparison of abscissas yield words of the right point: for equal points, for opposite ones, for the point at infinity, and for any words that stand for the points, with no overflow on the way.", "quantifier": "all points of the curve, all Jacobian coordinates of each, all words of magnitude up to 8 that stand for these", "why_tests_cant": "the exceptional cases (equal or opposite points with different Z, an intermediate value that is zero) are met with negligible probability by random inputs, and overflow depends on sums of nearly maximal words", "anchors": ["src/secp256k1/group_impl.h:hsk_secp256k1_gej_double_var", "src/secp256k1/group_impl.h:hsk_secp256k1_gej_add_var", "src/secp256k1/group_impl.h:hsk_secp256k1_gej_add_ge_var", "src/secp256k1/group_impl.h:hsk_secp256k1_gej_add_ge", "src/secp256k1/group_impl.h:hsk_secp256k1_gej_neg", "src/secp256k1/group_impl.h:hsk_secp256k1_gej_rescale", "src/secp256k1/group_impl.h:hsk_secp256k1_ge_set_gej", "src/secp256k1/group_impl.h:hsk_secp256k1_gej_eq_x_var"]}
{"id": "C87", "title": "The product of a point and a secret number, and the common secret, are right on machine words", "statement": "The multiplication used for the common secret rewrites the number with 65 odd signed digits, reads odd multiples of the point from a table without branching on secrets, and corrects the result at the end. For every point and every number modulo the order the result is the product, also for 0 and for -1 where an intermediate sum meets an exceptional case, and whatever uninitialised memory holds. The common secret of a public and a private key is therefore the SHA-256 of the compressed product; strings that are no keys, and numbers that are 0 or not below the order, are refused; nothing ends the process.", "quantifier": "all points, all numbers modulo the order, all contents of uninitialised memory; all strings for the public key and all 32 bytes for the private one", "why_tests_cant": "a wrong digit, table entry or exceptional case may concern one number in 2^256; two nodes then derive different keys and cannot talk", "anchors": ["src/secp256k1/ecmult_const_impl.h:hsk_secp256k1_wnaf_const", "src/secp256k1/ecmult_const_impl.h:hsk_secp256k1_ecmult_const", "src/secp256k1/ecmult_impl.h:hsk_secp256k1_ecmult_odd_multiples_table_globalz_windowa", "src/secp256k1/group_impl.h:hsk_secp256k1_ge_globalz_set_table_gej", "src/secp256k1/ecdh_impl.h:hsk_secp256k1_ecdh", "src/ec.c:hsk_ec_ecdh"]}
{"id": "C88", "title": "Public keys are right whatever the blinding of the context, and so is the table in the source", "statement": "The multiple of the base point for a secret number is computed from a table of 1024 points in the source, starting from a point that blinds the computation. All 1024 entries are the points they should be; every context the program can have, new or randomized any number of times with any seeds, is consistently blinded; and for each of them and every number the result is the multiple of the base point. So the public key of a private key is the compressed multiple, whatever seeds were used, numbers that are 0 or not below the order are refused, and two nodes derive the same secret.", "quantifier": "all entries of the table, all contexts reachable by creation and randomization, all seeds, all contents of uninitialised memory, all numbers modulo the order, all private keys of 32 bytes", "why_tests_cant": "a wrong entry of the table concerns one window of the number in 64 and one digit in 16, a wrong blinding only contexts with that seed, and the exceptional cases of the addition one number in 2^256", "anchors": ["src/secp256k1/ecmult_static_context.h:hsk_secp256k1_ecmult_static_context", "src/secp256k1/ecmult_gen_impl.h:hsk_secp256k1_ecmult_gen", "src/secp256k1/ecmult_gen_impl.h:hsk_secp256k1_ecmult_gen_blind", "src/secp256k1/ecmult_gen_impl.h:hsk_secp256k1_ecmult_gen_context_build", "src/secp256k1/secp256k1.c:hsk_secp256k1_ec_pubkey_create", "src/secp256k1/secp256k1.c:hsk_secp256k1_context_randomize", "src/ec.c:hsk_ec_create_pubkey", "src/ec.c:hsk_ec_randomize"]}
{"id": "C89", "title": "A signature computed in machine words with any blinding is the signature of the mathematics", "statement": "Signing a digest computes in words of 52 and 64 bits, with the blinded table for the base point. The result equals the signature of C78, computed with residues and points: the same 64 bytes and the same number for recovery, for every context the program can have and whatever its memory held before. So two nodes with one key sign the same, signatures have the smaller second number, unless the first number is 0 they are valid and accepted under the public key that was made on words, and numbers that are no private key sign nothing.", "quantifier": "all contexts reachable by creation and randomization, all contents of uninitialised memory, all private keys and digests of 32 bytes, any number of rounds of the loop", "why_tests_cant": "an error in a carry of the words or in the blinding concerns a vanishing share of keys, digests and seeds; the signature differs from the right one only for those", "anchors": ["src/ec.c:hsk_ec_sign_msg", "src/secp256k1/ecdsa_impl.h:hsk_secp256k1_ecdsa_sig_sign", "src/secp256k1/recovery_impl.h:hsk_secp256k1_ecdsa_sign_recoverable", "src/secp256k1/recovery_impl.h:hsk_secp256k1_ecdsa_recoverable_signature_serialize_compact"]}
{"id": "C90", "title": "Checking a signature in machine words accepts just the valid ones", "statement": "The check of a signature computes in words the sum of a multiple of the public key and a multiple of the base point, with signed digits and tables of odd multiples. The table of the base point the program builds at its start holds the right 16384 points; the sum is right for all points and numbers, also where parts of it coincide, cancel or are infinity; so the check answers as the one of C78: it always ends, and accepts a signature just when the key is on the curve, the signature is valid for the digest and its second number is the smaller one. What a node signs in words, another accepts in words, unless the first number of the signature is 0.", "quantifier": "all public keys, digests and signatures as bytes, all points and scalars, all windows up to 31 bits, all contents of uninitialised memory", "why_tests_cant": "exceptional cases of the addition (equal or opposite operands, infinity on the way) and carries concern a vanishing share of inputs, but an attacker chooses the key and the signature", "anchors": ["src/ec.c:hsk_ec_verify_msg", "src/secp256k1/ecmult_impl.h:hsk_secp256k1_ecmult", "src/secp256k1/ecmult_impl.h:hsk_secp256k1_ecmult_wnaf", "src/secp256k1/ecmult_impl.h:hsk_secp256k1_ecmult_context_build", "src/secp256k1/ecdsa_impl.h:hsk_secp256k1_ecdsa_sig_verify", "src/secp256k1/group_impl.h:hsk_secp256k1_gej_add_zinv_var"]}
{"id": "C91", "title": "The public key recovered from a signature is the one that made it", "statement": "From a digest, a signature of 64 bytes and a number from 0 to 3, recovery gives the public key that SEC 1 defines, or says that there is none; it never ends the process. The key is unique. The keys that come out for some number are just those under which the signature is valid, so the check of signatures accepts them (if the second number is the smaller one). A node recovers its own key from its own signatures with the number that goes with them, unless the first number is 0. The check against a hash of the key accepts just the hash of the recovered key. A number outside 0 to 3 ends the process.", "quantifier": "all digests of 32 bytes, all signatures of 64 bytes, all integers as number, all private keys, all contexts reachable, all contents of uninitialised memory", "why_tests_cant": "abscissas from n to p occur with probability 2^-128 and are one of the four cases; the exceptional cases of the sum are chosen by who makes the signature", "anchors": ["src/ec.c:hsk_ec_recover", "src/ec.c:hsk_ec_verify_hash", "src/secp256k1/recovery_impl.h:hsk_secp256k1_ecdsa_sig_recover", "src/secp256k1/recovery_impl.h:hsk_secp256k1_ecdsa_recoverable_signature_parse_compact"]}
{"id": "C92", "title": "The keyed hash of the library is SipHash-2-4", "statement": "hsk_siphash of any message under a key of 16 bytes is SipHash-2-4 as its authors define it, and reads nothing but the message and the key; the functions for numbers are the same compression of one word, with a key of 16 or of 32 bytes. False from 2^35 bytes on: the number of blocks is kept in 32 bits, so that only the first part of the message, its length modulo 2^35, enters the hash.", "quantifier": "all messages of any length, all keys, all numbers, all bytes of memory around them", "why_tests_cant": "vectors cover lengths up to 63 bytes; agreement must hold for all lengths, contents and keys, and the truncation shows only beyond 32 GiB", "anchors": ["src/siphash.c:hsk_siphash", "src/siphash.c:hsk_siphash32", "src/siphash.c:hsk_siphash64", "src/siphash.c:hsk_siphash32k256", "src/siphash.c:hsk_siphash64k256"]}
{"id": "C93", "title": "Every status has a text", "statement": "For every integer the function for texts of errors gives one without reading outside its table; different errors have different texts, and what is no error has the text for unknown ones. The text is the name of the constant; false of two, which are misspelt.", "quantifier": "all integers as status", "why_tests_cant": "the bound of the table must hold for all integers, negative ones included, since codes of other libraries are passed on", "anchors": ["src/error.c:hsk_strerror", "src/error.h:HSK_MAXERROR"]}
{"id": "C94", "title": "The serial number of the root zone is the date and never goes back", "statement": "The SOA record that answers for the root has as serial number the digits of year, month, day and hour of the time of the answer in the Gregorian calendar (UTC). Later answers have no lower serial number, and there is a new one every hour. False from 19 January 2038, 3:14:08 on: the time is put into 32 bits, the date becomes one of 1901 and the serial number is lower than all before.", "quantifier": "all times from 1970 on, all pairs of times", "why_tests_cant": "a test fixes dates; leap days, ends of centuries, the order over all pairs of times and the end of 32 bits need all of them", "anchors": ["src/utils.c:hsk_date", "src/utils.c:hsk_ymdh", "src/resource.c:hsk_resource_root_to_soa"]}
{"id": "C95", "title": "The recursive server asks the name server of the same process", "statement": "Whatever address and port the authoritative server is given to listen at, the text \"address@port\" that the recursive server gives to libunbound as the place of the root zone denotes an address and port at which that authoritative server is reached: the same, with the loopback address for \"any\" and IPv4 for mapped addresses. It fits its buffer. False for port 0 (the text says 5349, the server is bound elsewhere) and for addresses in Tor's block (made from the wrong bytes).", "quantifier": "all IPv4 and IPv6 addresses, all ports", "why_tests_cant": "a test fixes an address; mapped, null and Tor addresses, and every port, need all of them", "anchors": ["src/addr.c:hsk_addr_to_at", "src/addr.c:hsk_sa_to_at", "src/addr.c:hsk_sa_localize", "src/addr.c:hsk_sa_copy", "src/rs.c:hsk_rs_init", "src/rs.c:hsk_rs_inject_options"]}
{"id": "C96", "title": "Random numbers and nonces are uniform if the system's are", "statement": "If the system's random numbers are uniform and independent, every number of 32 bits is equally likely as a random number of the program, every number of 64 bits as the nonce of a version or ping message, in whichever order the compiler has the halves computed, and a choice among n takes each with the same likelihood up to 1 in 2^32. False where the system's numbers have 15 bits (Windows): two bits are always zero.", "quantifier": "all results, all sizes of the source's numbers, all n, both orders of evaluation", "why_tests_cant": "a test draws samples; that no result is favoured is a statement about all draws", "anchors": ["src/utils.c:hsk_random", "src/utils.c:hsk_nonce", "src/addrmgr.c:hsk_addrman_search", "src/pool.c:hsk_pool_pick_prover"]}
{"id": "C97", "title": "The library's other operations on big numbers are exact", "statement": "Taking one away, the low 64 bits, bitwise and and exclusive or, the remainder, powers modulo 2^512 (which use up their exponent), and shifts to the right give what integer arithmetic gives. False of shifts by 32 bits or more, which lose bits and from 512 on read outside the number, and of the function named after negation, which yields the complement.", "quantifier": "all numbers of 512 bits, all exponents and shifts", "why_tests_cant": "carries between words, and every shift, need all values", "anchors": ["src/bn.c:hsk_bn_dec", "src/bn.c:hsk_bn_mod", "src/bn.c:hsk_bn_pow", "src/bn.c:hsk_bn_rshift", "src/bn.c:hsk_bn_neg", "src/bn.c:hsk_bn_and", "src/bn.c:hsk_bn_xor", "src/bn.c:hsk_bn_to_int"]}
{"id": "C98", "title": "The keyed hashes are BLAKE2b with a key and KMAC256", "statement": "The keyed BLAKE2b hash of any message under any key of 1 to 64 bytes, fed in any pieces, is the one of RFC 7693, and other keys end the process; the one-call form does the same for every digest size of 1 to 64 bytes with or without a key, reads no more than it is told is there, and refuses everything else; the keyed SHA-3 hash of 208 bytes under 32 is KMAC256 of SP 800-185 with 256 bits, and other sizes end the process; the older ending gives Keccak without the SHA-3 suffix.", "quantifier": "all messages and ways to cut them, all keys, all digest sizes, all prior contents of buffers", "why_tests_cant": "known answers cover a few lengths; block boundaries, key sizes and cuts are unbounded", "anchors": ["src/blake2b.c:hsk_blake2b_init_key", "src/blake2b.c:hsk_blake2b", "src/hash.c:hsk_hash_blake2b_key", "src/hash.c:hsk_hash_sha3_key", "src/sha3.c:hsk_cshake_final", "src/sha3.c:hsk_keccak_final"]}
{"id": "C99", "title": "A list of records behaves as a list", "statement": "Every sequence of calls that append, take from either end, read or replace at an index (counted from either end), free, or empty a list of records or texts gives what a list of at most 255 elements gives, with no element lost or doubled, no access outside the array and no failed assertion. False of the call that puts an element at the front: it overwrites the list with copies of its first element, and at 254 elements writes outside the array.", "quantifier": "all sequences of calls, all elements, all indices of an int", "why_tests_cant": "sequences of calls are unbounded, and faults show only at sizes and indices near the limits", "anchors": ["src/dns.c:hsk_dns_rrs_push", "src/dns.c:hsk_dns_rrs_pop", "src/dns.c:hsk_dns_rrs_shift", "src/dns.c:hsk_dns_rrs_unshift", "src/dns.c:hsk_dns_rrs_get", "src/dns.c:hsk_dns_rrs_set", "src/dns.c:hsk_dns_rrs_uninit", "src/dns.c:hsk_dns_txts_unshift"]}
{"id": "C100", "title": "A name made readable is read back as the same name", "statement": "For every name that fits on the wire, the readable form fits its array of 1010 bytes, and, if every octet is below 127, a reader of zone files takes it for exactly that name: dots within labels, zeros, control characters and special characters are quoted so that each comes back. False of every octet from 127 on, whose second digit is not a digit, and the bound on the output does not hold for texts longer than a name.", "quantifier": "all names: any number of labels of any octets, any prior contents of the array", "why_tests_cant": "names are unbounded combinations of 256 octets and label boundaries", "anchors": ["src/dns.c:hsk_dns_name_sanitize"]}
{"id": "C101", "title": "Big numbers are read from and written to hexadecimal text faithfully", "statement": "Reading a text of up to 128 hexadecimal digits, a multiple of eight of them, gives the number the digits are. Writing any number into an array with room for 128 digits and a NUL gives digits that are that number, with no zero in front. False of texts whose length is no multiple of eight, whose first digits are ignored; of texts of 136 digits, which overrun the number; of zero, which is written as an empty text; of writing fewer digits, which takes the top ones and overruns short arrays; and of reading back what was written, which may be odd in length and then aborts.", "quantifier": "all digit texts, all numbers of 512 bits, all array contents, and every sscanf that reads eight digits as their number", "why_tests_cant": "there are 2^512 numbers and the failures depend on the length of the text and on the leading zeros", "anchors": ["src/bn.c:hsk_bn_from_string", "src/bn.c:hsk_bn_to_string"]}
{"id": "C102", "title": "The names of the checkpoint file fit their arrays and never clash", "statement": "For every prefix directory the daemon accepts, on every network, the name of the checkpoint file is written within its array of 1024 bytes and is the directory, 'checkpoint_', the network and '.dat'. The temporary name a checkpoint is first written under is that name with '~' and the height behind, within its array, in the same directory, different from the lasting name and from the temporary name of any other height. False as the C language is defined, since the temporary name is made by a sprintf that reads the array it writes, so that storing any checkpoint is undefined behaviour; and, even with a library that is kind to that, false on testnet and regtest for a directory of 991 bytes from height 100000000 on, since 32 bytes are reserved where 35 may be needed.", "quantifier": "all accepted directories, networks, heights and prior array contents, and every C library", "why_tests_cant": "the call works or fails by the C library in use, and the overrun needs the longest directory and a height no test chain reaches", "anchors": ["src/store.c:hsk_store_filename", "src/store.c:hsk_store_write", "src/daemon.c:hsk_daemon_open", "src/store.h:HSK_STORE_PATH_RESERVED"]}
