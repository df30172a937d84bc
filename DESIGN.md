# Formal model of hnsd: design

The model is written in Lean 4 under `lean/Verif/`. Each source area of `/repo/src` has

* a *model* file (`Verif/Model/X.lean`) with total computable functions, each
  definition carrying the file and lines of the C code it models;
* a *spec* part (`Verif/Spec/X.lean`, where the property needs vocabulary of its own),
  written without reference to the model;
* a *lemma* file (`Verif/Lemmas/X.lean`) with helper proofs;
* a *property* file (`Verif/Props/X.lean`) with only the property theorems and, beside
  each one, a concrete example that meets its hypotheses.

Undefined behaviour in C (out-of-bounds access, double free, failed `assert`) is a
separate outcome of the model (`Res.ub`), never assumed away. Where a property is false
of the code, the file has a theorem with a concrete witness of the failure
(`..._false` / `..._violation`) and a `_partial` theorem with the strongest version that
does hold.

## Plan per property

| id | what is modelled | how it is proved |
|----|------------------|------------------|
| C01 | `hsk_proof_verify` over an arbitrary hash function | induction over the node lists of two proofs from the root down; a mismatch gives an explicit collision |
| C02 | the same, plus an abstract radix tree and its root hash | as C01, tree against proof |
| C03 | honest prover as a walk of the abstract tree | induction over the tree |
| C04 | `hsk_proof_read`, `read_bitlen`, `bio.h` readers | case analysis, round trip by induction over nodes |
| C05-C07, C09-C11 | chain state machine (`chain.c`): hash map, height map, orphan maps, tip | inductive invariant over all histories |
| C08 | `retarget`, `get_target`, `suitable_block` on integers | equation with an independent spec; bounds by `omega` |
| C12 | `get_locator` | induction on the loop |
| C13 | `safe_root` | arithmetic plus the height-index invariant |
| C14, C17 | `header.c` codec and preimages | round trip, injectivity of the preimage |
| C15, C16 | `pow_to_target`, `pow_to_bits`, `get_proof`, `bn.c` word arithmetic | integer refinement |
| C18, C19 | `store.c` codec, file-system steps with a crash point | round trip; all prefixes of the step list |
| C53 | chain started from a checkpoint window | invariant with a trusted window; abort witness |
| C20 | `timedata.c` | invariant over sample histories, negation witness for the sign |
| C21-C26 | `dns.c` names, compression table, records, messages, truncation | fuelled recursion with termination proof, round trips |
| C27, C28, C56 | `req.c` | decision logic |
| C55 | label functions of `dns.c` | refinement of the list of labels |
| C29, C30 | `resource.c` | negation witness for overflow, decision logic for referrals |
| C31, C57, C58 | `ns.c` dispatch, `hesiod.c` | decision logic; cache invariant |
| C32 | `cache.c` | invariant over histories |
| C33 | `map.c` (khash port) with flag array, probing and in-place rehash | refinement to a finite map |
| C34, C35, C49, C51 | `pool.c` request, proof, header and peer bookkeeping | invariant over event histories |
| C59 | the pool machine with the chain, addresses, network time and decoding it calls | invariant of definedness over all histories, composing C04, C05, C12, C13, C36, C41 and C47 |
| C36 | `hsk_peer_on_read` / `parse_hdr` / `parse` | stream refinement, all splittings |
| C37-C39, C60 | `brontide.c` over an abstract AEAD/hash/ECDH | stream refinement; nonce invariant; two honest ends over a network with arbitrary delivery; definedness |
| C40, C41 | `addr.c`, `addrmgr.c` | codec round trip, decision logic, invariant |
| C42 | `base32.c` | round trip by induction over 5-byte groups |
| C43 | `sig0.c` | byte-level equalities |
| C44, C61 | `rs_worker.c` as a two-thread transition system | invariant over interleavings; a measure for progress |
| C62 | requests and responses of `rs.c`, on top of `req.c`, `dns.c` and C44 | decision logic; header bytes of every packet |
| C63, C64 | `sha256.c` and the SHA-256 part of `hash.c`, on memory with arbitrary contents | block function by an invariant of the rotating variables and the circular schedule; the buffer by an invariant over updates |
| C65-C67 | `chacha20.c`, `poly1305.c`, `poly1305-64.h`, `aead.c` | place in the key stream as invariant; limbs as numbers modulo 2^130 - 5, with bounds on all carries; composition; laws of `Spec.Brontide.Laws` for the result |
| C68 | `blake2b.c` without keys | mixing on four places of the work vector; the lazily emptied buffer by an invariant over updates |
| C69 | `sha3.c` | the steps of the permutation on 25 variables; invariant over updates; padding by cases |
| C70 | the hashes of `header.c` with these routines | composition of C68, C69 and C17; C01 for BLAKE2b |
| C71, C72 | `genesis.h`, the constants of `constants.h`, `checkpoints.h` | the block hashes by a fast evaluator proved equal to the modelled routines, run in the kernel; C53's invariant |
| C73, C74 | `ecc.c`: key derivation and signing, on 64-bit digits | digits as numbers; each routine modulo p or n; the co-Z ladder against Mathlib's group law on the curve; primality of p and n by certificates; the order of the base point by a chain of additions |
| C75 | `env`: SHA-256 and ECDSA in place of C45's parameters, the trust anchor | composition of C45, C63, C73, C74; the two public keys by chains of additions in the kernel |
| C76 | `elligator_impl.h` over the field of residues, with the group routines it uses | the chains as powers; the candidates against the curve's equation; the inverse by cases over the hints; `gej_add_ge` against Mathlib's group law |
| C77 | `ec.c`: keys and secrets; the transport over them | order of the base point by a chain of additions; composition of C39, C67, C76; the number of points from the order and a bound |
| C78 | `ec.c`: signing and verifying; `ecdsa_impl.h`, the generator of `hash_impl.h`; SIG(0) over them | the group as a module over the residues modulo n; composition with C43; the published vector by a chain of additions |
| C79 | `hash_impl.h` of the library: SHA-256, HMAC, the generator | transformation equal to that of `sha256.c`; stream invariant over writes; composition for HMAC and the generator |
| C80 | `field_5x52_impl.h`, `field_5x52_int128_impl.h`: field elements as five words | bounds on all sums of 64 and 128 bits; the words as a number modulo p; normal forms unique |
| C81 | `elligator_impl.h`, the parts of `field_impl.h` and `group_impl.h` behind it, keys, on five words, with the generator | the functions of C76 simulated, with the magnitude of every variable; then C76 |
| C82 | options in `daemon.c` (`parse_arg`, `daemonize`, `print_identity`), `getopt_long`, `atoi`, hex of `utils.c` | a chain of effects over the options found; blocks of memory counted |
| C83 | `hsk_pool_set_seeds`, `hsk_pool_set_agent`, `hsk_pool_set_size` | the loop by positions as one over the text; texts with commas are no addresses; invariant of C41 |
| C84 | `hsk_daemon_*`, `main`, `signals.c`, opening and closing in `pool.c`, `ns.c`, `rs.c`, `rs_worker.c` | status of every object and pointer; evaluation along each path of failure; four states under all events |
| C85 | `scalar_4x64_impl.h`, `scalar_impl.h`: scalars as four words | an accumulator of three words as a number; the columns of the product; three folds by 2^256 mod n; powers along the chain of the inverse |
| C86 | `group_impl.h`: points as three field elements of five words | the formulas as identities of fields, case by case over the group law of Mathlib; magnitudes along the straight-line code |
| C87 | `ecmult_const_impl.h`, the table of `ecmult_impl.h` and `group_impl.h`, `ecdh_impl.h` | the digits by an invariant of their loop; the table with a common Z (a factor on all points); the loop as Horner's rule in the group |
| C88 | `ecmult_gen_impl.h`, `ecmult_static_context.h`, `hsk_secp256k1_ec_pubkey_create`, `context_randomize` | the table by a check on numbers that the kernel evaluates, with chords and tangents for sums; the loop by induction on rows; the blinding as an invariant of contexts |
| C89 | `hsk_ec_sign_msg`, `ecdsa_sig_sign`, `ecdsa_sign_recoverable` on words | each step with C85, C86 and C88; the loop by induction, in step with that of C78 |
| C90 | `ecmult_impl.h` (digits, tables, Strauss's loop), `ecdsa_sig_verify` and `hsk_ec_verify_msg` on words | the digits by an invariant of their loop; the tables as for C87, with the inverses from the last point back; the loop as Horner's rule in the group; the comparison of x with C80 and C86 |
| C91 | `hsk_ec_recover`, `hsk_ec_verify_hash`, `ecdsa_sig_recover` on words | the point by C80 and the root of C76; the key by C90 and an equation in the group; own signatures by the number that signing gives |
| C92 | siphash.c | induction over the blocks and over the cases of the switch, against the words of the padded message |
| C93 | error.c | cases over the table; the rest by the bound |
| C94 | `hsk_date`, the serial number | a calendar that counts the days of years and months; the formula for the year by monotony and the 400 first days of years, the rest by linear arithmetic |
| C95 | `hsk_addr_to_at`, `hsk_sa_localize`, the stub of rs.c | cases over the two families, mapped and null addresses; the text by what is assumed of libuv's conversions (as C54) |
| C96 | `hsk_random`, `hsk_nonce`, the choices with `%` | a bijection between the draws for any two results; counting residues for the choices |
| C97 | the routines of bn.c outside the daemon's use | values of lists of words, as C16; induction over words and over the exponent |
| C98 | keyed hashes: the rest of `blake2b.c`, `sha3.c` and `hash.c` | the lemmas of C68 and C69; a key's size changes only the first word of the state |
| C99 | lists of records and of texts in `dns.c` | refinement: array and size stand for a list; induction over calls and loops |
| C100 | `hsk_dns_name_sanitize` | a reader of RFC 1035 text as specification; every octet's piece by cases, names by induction |
| C101 | `hsk_bn_from_string`, `hsk_bn_to_string` | the number a text of digits is, as specification; both loops by induction on the words |
| C102 | `hsk_store_filename`, the check of the prefix in daemon.c | arrays of bytes; the overlapping `sprintf` a parameter; lengths of decimal numbers by induction |
| C45 | `hsk_dns_sighash` and friends | permutation invariance of sort + dedupe |
| C46 | `ip_to_b32`, `pointer_to_ip` | round trip; abort/overflow witnesses |
| C47, C48 | `msg.c`, varints in `bio.h` | round trips; out-of-bounds witness |
| C50 | `tld.h` table and the binary search in `ns.c` | table checked sorted in the kernel, search correct on sorted tables |

## Trusted base

* Lean's kernel (4.33.0). Theorems depend on at most `propext`, `Classical.choice`,
  `Quot.sound`.
* The reading of the C code: nothing is executed.
* External behaviour taken as parameters: hash functions (Blake2b, SHA-3, SHA-256),
  AEAD and elliptic-curve operations, clock, random numbers, libuv, libunbound,
  allocation success (unless a theorem says otherwise). SHA-256, HMAC, HKDF, the AEAD, BLAKE2b and
  SHA-3 are modelled as well (C63-C69); `C67_transport` puts them in place of the transport's
  parameters, and C70 in place of those of headers and proofs. ECDSA is modelled (C73, C74), with the
  random numbers as parameter, and C75 puts it and SHA-256 in place of C45's parameters. The curve of the
  transport and of signed answers is modelled (C76-C79) with the multiplication of points (`ecmult`, `ecmult_gen`, `ecmult_const`) and the
  arithmetic of scalars taken to be that of the group and of the residues; field elements are five words in C80, C81, C86 and C87,
  scalars four words in C85 and C87, and both are residues elsewhere. `ecmult_const` is proved to be the product (C87),
  and so is `ecmult_gen` (C88); signing over it is modelled on words and proved to be that of C78 (C89);
  `ecmult` is proved to be the sum (C90), and verifying over it is that of C78.

## What is modelled, simplified and left out

### bio.h, utils.c memory helpers (`Model/Mem`, `Model/Bio`)
Byte cursors are the list of unread bytes. `read_varint` on an empty buffer reads one
byte past the end (outcome `ub`), and `size_varint` disagrees with `write_varint` from
253 on: both are proved as counterexamples (C48).

### proof.c (`Model/Proof`)
Verification is over an arbitrary hash function. Uniqueness and soundness are stated
"unless this list of hashed strings contains a collision".

### bn.c, header.c (`Model/Bn`, `Model/Header`)
Word-level model, proved equal to natural-number arithmetic modulo 2^256 (the bignum
has 16 32-bit words, so intermediate products do not wrap). `bn_div` by zero does not
terminate in C; the model returns `none`. `hsk_pow_to_target` with an exponent of 35 or
more shifts the mantissa out of the 32 byte array in a way that aliases small targets
(C15 is partial for that reason).

### chain.c (`Model/Chain`)
Hash tables are finite maps (the refinement of the hash table itself is C33). Heights
are unbounded. The C library's `qsort` is taken to sort. Logging, the progress display
and the write of the checkpoint file are not part of the chain state. Assumptions of the
chain theorems: the header hash has 32 bytes; no header hashes to the all-zero parent of
genesis; the adjusted clock lies in [-7200, 2^63-7200). Defects found and proved:
* a waiting header that fails its checks makes the call that stored its parent report an
  error (C09_error_but_stored);
* of two waiting headers with the same parent only the later is connected; the earlier is
  stranded and refused as a duplicate when offered again (C10_stranded).
The no-abort theorem is for a node started from genesis. A node started from a
checkpoint lacks ancestors for the first 146 headers of its window, and a header on top
of one of those makes an assert in `get_target` fail.


### timedata.c (`Model/Timedata`)
Peer addresses are an abstract type up to `hsk_addr_equal`. Signed 64-bit overflow is
`ub`: peers that send times near 2^63 reach it (C20_overflow). The absolute value taken
before the range check is also what becomes the offset, so a negative median moves the
clock forward (C20_sign_lost).

### store.c and loading in daemon.c (`Model/Store`)
POSIX branch. File contents are byte lists, a save is the list of file-system states it
goes through for every possible outcome of `fopen`, `fwrite` and `rename`; `rename` is
atomic. There is no `fsync` in the code, so the crash theorem (C19) is about the process
stopping, not about the machine losing power; a file truncated by that is ignored at the
next start (C18_truncated_file_ignored). A longer file is accepted and its first 35441
bytes are used. The headers in the file are trusted: `inject_checkpoint` aborts on a
broken link. The hard-coded checkpoint that `daemon.c` can inject first goes through the
same `inject` (C72). The 1024-byte path buffers are C102.
C53_abort: after a restart the parents of the window are unknown, so a header naming the
first window header as parent fails an assertion before its claimed difficulty is
compared with the demanded one. Minimum work suffices to trigger it.

### base32.c (`Model/Base32`)
The specification regroups bits; the model keeps the C state machine. The C code stores
table values in a plain `char`, so the theorems about decoding are for platforms where it
is signed; the unsigned case is a parameter of the model and C42_unsigned_char_false shows
what happens there.

### addr.c (`Model/Addr`)
libuv's text conversions of IP addresses are parameters with the assumptions `InetOK`: what
is printed contains no `@`, `[` or `]`, fits the buffer and reads back; text that is
refused leaves no address. INET6_ADDRSTRLEN is 46. Ports are the main network's.
`hsk_addr_from_ip` always returns false, so `hsk_addrman_add_ip` never adds anything; that
function is not modelled. Found: ports are taken modulo 2^16 and an empty port is 0
(C54_port_false); 127.1.0.1 and multicast addresses are routable (C40_loopback_false).

### addrmgr.c (`Model/Addrman`)
Random values, both clocks and the entry that `hsk_addrman_search` settles on (it uses
floating-point weights) are arbitrary parameters. The address table holds indices, not
pointers. The seeds added by `hsk_addrman_init` are ordinary additions. A banned address
can be picked in the last five of a hundred tries (C41_banned_pick); the claim does not
exclude it.

### msg.c (`Model/Msg`)
Commands and payloads. A payload of size zero reaches the decoder as a null or empty
buffer, and `read_varint` tests the wrong pointer, so an empty `addr`, `getheaders` or
`headers` payload is read past its end (C47_empty_payload_false). The list freed by a
failed `headers` read is not used again, because the caller frees only the message. The
failing header is leaked; leaks are not modelled. `hsk_msg_size` counts a list of 253 or
more items two bytes short (C47_size_false); this node only writes lists of up to 64.

### sig0.c (`Model/Sig0`)
BLAKE2b and secp256k1 are parameters; signatures are assumed to be 64 bytes. The output
buffer is built in one expression instead of field by field. Times are 32-bit: the window
theorem is for clocks where adding or subtracting six hours does not wrap. A message whose
additional count is 65535 cannot be signed (part of C43_sign).

### ns.c fallback lookup and tld.h (`Model/Tld`, `Model/TldTable`)
`tools/tld.py` generates the table module from tld.h; a C string is written as one number
whose digits in base 256 are 1 and then the bytes. `strcasecmp` is the C locale's. The
kernel evaluates the order of all names and the size of all entries; the search theorem is
generic in the label.

### dns.c names (`Model/DnsName`)
A C string is the list of its bytes; the compression table is a finite map (C33 is about the
hash table itself). The reader's rounds are bounded by fuel and running out is `ub`, so
"never `ub`" includes termination. Stores outside the 256-byte name, the 256 bytes a name may
take on the wire or the message buffer are `ub`. `Spec/DnsName` says with `Expands` which
name stands at an offset of a message. Found: names with a leading dot are accepted and
written as the root followed by rubbish; names of 256 wire bytes are accepted; bytes 0xff and
0xfe of labels are changed to 0 and '.' (C22); a message may contain chains of more pointers
than the reader follows (C23).

### dns.c messages (`Model/Dns`)
Record data is a list of typed values whose layout depends on the record type; there is one
table of layouts for the writer and one for the reader, as in C. A writer is a function of the
offset and the compression table, run without a buffer (the dry run) or with one of a given
size, outside of which every store is `ub`. The data length is written after the data, which C
does too. `Spec/Dns` says what a well-formed message is and, for truncation, where questions
and records stand in any packet. The truncation theorems come in two kinds: for arbitrary
packets (C26_safe, C26_packet), and for encoded messages, where the result is the encoding of
the message cut to its first records (C26_message). Found: a code above 15 without EDNS adds a
record that is not counted; names beginning with a dot overrun the buffer by one byte; EDNS
data is always lost on truncation.

### dns.c labels (`Model/Label`)
A name is its characters. The positions of labels are stored as bytes, as in C. Indices before
the first label are `ub`. The theorems are about names of the form `text ls` for a list of
labels `ls`, which C21 shows every name read from a packet to be. Recognition of service labels
is stated over the list of labels in `Spec/Label`.

### req.c (`Model/Req`)
Complete, but for the address of the sender. `Spec/Req` says when a message is a query, what is
known of it, what the complete response to it is, and what is sent of that under a size limit.
The message given to finalisation is arbitrary within `Answer`: values fit, names of records
have at most ten labels (C24). Found: neither class, EDNS version nor the response flag is
checked (the class check is compiled out); a truncated response is not marked and has no EDNS;
a question whose name has unusual characters is replaced by "."; an answer can be made so that
signing takes it for signed and cuts off its end.

### DNSSEC part of dns.c, dnssec.c (`Model/Dnssec`)
Complete: cloning, key tags, key and DS records, canonical form, order, the hash input, signing
one record set and one type in a section, and the built-in keys. SHA-256, ECDSA and qsort are
parameters (`Env`); the only assumption on qsort is `Spec.Dnssec.Sorts`. `Spec/Dnssec` says what
canonical form, canonical bytes and a record set are; order is that of lists of bytes. Found:
the TTL of an RRSIG record is that of the key, not of the set (RFC 4034, 3, wants the latter);
names in RP records keep their case (RFC 4034, 6.2, lists RP); a set of SIG records is accessed as
RRSIG records (`C45_sig_type`, never signed by the program).

### resource.c, hsk_date (`Model/Resource`)
Complete, but for what is leaked. A record that is read in part is modelled with what has been
stored by then, as the code keeps it. `Spec/Resource` gives the format of resources by offsets, so
that names may be compressed, and the sections of a response for a list of records; what signing
adds to a section is that of C45. Responses are proved for every resource in that format, every
name and type. That all entries of the built-in list have the format is evaluated by the kernel,
on numbers (`Lemmas/Builtin`, `Lemmas/BuiltinTable`). Found: failures to read a record are
ignored, so that records are kept of which nothing, or part, was read, and reading goes on in their
middle; more than 255 records overrun the table; a name server without a name aborts the program
when it is asked for; a text cut off is freed twice; addresses for names with unusual characters are given
as the root's; addresses are left out if the query is spelled in other case than the resource; a
synthesised label of "_" and one character aborts the program, and one of "_" and 28 characters
overruns the buffer.

### cache.c (`Model/Cache`)
- Modelled: hsk_cache_key_set, hsk_cache_key_equal, hsk_cache_insert_data, hsk_cache_get_data, hsk_cache_insert, hsk_cache_get. The hash table is a finite map, justified by C33. The clock is an argument of each operation, so it may go back; keys are identified when hsk_cache_key_equal says so.
- Left out: printing, allocation failure.
- The code disagrees with C32's intent: hsk_cache_key_set asks hsk_resource_is_ptr for every name of two labels, whose assertion fails on `_x.y` (x any digit of base32hex). One UDP query stops the process: `C32_abort_false`. The theorems leave out these names.
- `C32_history_partial` is about histories from an empty cache, `C32_hit` says that an insertion is found, for the same name in any case and, for referrals, any name below the same last label.

### ns.c requests, hesiod.c (`Model/Ns`, `Model/Hesiod`)
- Modelled: hsk_ns_onrecv with its whole dispatch, hsk_ns_respond, after_resolve up to the release of the resource, hsk_hesiod_resolve and the functions below it. What is sent and what is asked of the pool are results; the clock, whether the pool accepts a question and what it finds are arguments. `run` is a history of packets and results, with the cache carried along.
- Left out: sockets, allocation failure, printing, opening and closing. "%f" of the progress is an argument. Responses signed with SIG(0) are covered by C27 and C43, not here: the theorems about packets are about a server without a key.
- `Spec.Ns.Goes` says which source a query belongs to, without the code; `C31_sources` shows that this is one and only one. `C31_packet_partial` says that the code follows it, for any reachable cache, and what is then sent. `C31_after` is the same for what the pool comes back with, and `C31_history_partial` for histories.
- The code disagrees with C31's intent: the buffer for names below `_synth` has 64 bytes, and one query with a longer name overruns it (`C31_overrun_false`). C57: the denial for an IPv6 name lists type 24 in place of 28 (`C57_types_false`), and the address itself is never signed, since the wrong section is. C58: the cache is looked up before the class, so after a query below `hnsd.` local clients get the kept denial for the information about the server (`C58_cached_false`).
- Answers of the pool for a name that goes to `_synth` with three or more labels are kept under that last label, and given for names of two labels that do not stand for an address. This is within C31, which puts the cache first.

### map.c (`Model/HMap`, `Model/HFns`)
- Modelled: lookup, put, set, get, has, del, clear, iteration and rehashing in place, and the hash and equality functions. Arrays are functions with a length; a read of a bucket never written, an index out of range and a loop that does not end are `ub`. Memory is an argument of each insertion.
- Left out: the packing of flags, tables without values (`is_map` false; not used), freeing of the arrays.
- The table works up to 2^30 keys. At 2^31 buckets the size for the next growth wraps to 0, the table is then filled up, and an insertion replaces another key; the limit in C33 stays clear of that.

### pool.c framing of plain connections (`Model/Framing`)
- Modelled: hsk_peer_on_read, hsk_peer_parse_hdr, hsk_peer_parse, with the buffer, its size and the pending command. The handler of messages is a parameter over any state, so the theorems hold for the handler of `Model/Pool` and for one that only records.
- Left out: failure of malloc and realloc (the peer is destroyed), the encrypted reader (`Model/Brontide`).
- The specification (`Spec/Framing`) cuts the whole stream into frames with no buffer at all; C36_stream equates the two for every way to cut the stream into reads.

### pool.c list of peers (`Model/PeerList`)
- Modelled at the level of pointers: a heap of peers with `next` pointers, head, tail, size, the index by address, push, remove, destroy, release of memory after the close callback, refill and the timer's walk over the list that saves `next` before it visits. Following a pointer to released memory and failing assertions are `ub`.
- Left out: what the peers say, which is in `Model/Pool`, where the list of peers is a plain list (C51 justifies this).

### pool.c requests, peers and messages (`Model/Pool`)
- Modelled: hsk_pool_resolve with the choice of a prover, requests per peer and pending ones, all message handlers (version, verack, ping, pong, addr, headers, sendheaders, proof), writes with every outcome, closing of peers, connection callbacks, the timer with its deadlines, refill. The machine reacts to events (`resolve`, `data`, `lost`, `connect`, `secure`, `timer`, `closed` ...); clock, randomness, results of writes and of opening connections are functions of a counter, so the theorems range over all of them. A log of observable actions does not influence the machine.
- Specified (`Spec/Pool`) by the log alone: which requests are alive, what counts as a call, when an answer is proven, which batches are vetted.
- C49_chain_valid composes with C05: the chain of a node after any history of the pool is one in which every accepted header obeys the rules.
- Left out: uninitialisation (frees pending requests with no callback, src/pool.c:198-202), the parsing of the seed list, hsk_pool_merge_reqs and hsk_pool_resend (never called), failures of allocation other than in writes.
- Disagreements with C34: a request for which no peer is ready stays in the pending list, which nothing ever reads (C34_pending_never, negation of the full statement); a write that fails at once calls back and then hsk_pool_resolve returns an error as well (C34_both), or returns an error and calls back at the deadline (C34_late), while hsk_ns has freed its request by then; hsk_peer_push_name may be for a peer that is still connecting, which has no deadline (C34_unsent).
- Coalescing: a request for a name already asked of a peer is not sent again, but the newest one decides which root is accepted. So an honest answer can be refused (C35_honest_answer_refused), and a request can get data of a root later than its own (C35_other_root). C35 is stated so that it covers this.
- C59: the machine is `ub`-free (all of chain, addresses, time, decoding, framing and bookkeeping together) except through the inputs in `Spec/PoolSafe`. Two of the exceptions were found by the failed proof: hsk_peer_handle_version copies an agent of 255 characters and its zero into 255 bytes (HSK_MAX_AGENT, src/pool.h:63), and hsk_timedata_add subtracts a time taken from the wire without a check.
- Assumptions of C59 (`World`): start from the genesis header (not from a checkpoint), no header hashing to the parent of genesis, a sane clock, fewer than 2^32 blocks. Times on the clock plus constants do not overflow.

### brontide.c (`Model/Brontide`)

All of it: cipher states with their rotation, the symmetric state, the three acts, the
buffering reader, writing, opening, closing. The primitives are parameters (`Prim`): SHA-256,
HKDF, the AEAD, public keys, ECDH, and the encoding of keys as 64 uniform bytes; what is asked
of them is `Spec.Brontide.Laws` and stands as a hypothesis of the theorems that need it (C39 all
of it, C37 and C60 only that the AEAD keeps lengths). The random source is a parameter of the
machine. The host's callbacks are programs that may write and close; they do not feed data back
into the reader (they do not in hnsd). Not modelled: `hsk_brontide_destroy`'s wiping; the copy of
a packet into fresh memory is the packet itself.

Found: `hsk_brontide_recv_act_one` and `_two` ignore the return value of
`hsk_ec_pubkey_from_hash`; where it fails (the two halves map to opposite points,
`elligator_impl.h:430-467`), the 33 bytes of the key are never set and are used all the same
(`C60_false`). `hsk_brontide_accept` is modelled although hnsd never calls it: it is the other
end in C39.

### rs_worker.c (`Model/RsWorker`)

Both linked lists on a heap of responses, the two threads, opening, submitting, closing,
releasing, the handlers of both async handles. A section under a mutex, with what follows it and
touches nothing shared, is one step; all interleavings of the steps of the two threads, of the
user's calls and of the library are covered (`Spec.RsWorker.Reach`). Trusted: mutexes exclude;
`uv_async_send` sets a flag the event loop looks at later, also several sends at once, and not
after the handle is closed; `uv_cond_wait` may return at any time; libunbound answers only
requests it has taken, each once, on the thread inside `ub_wait`, which may return at any time.
Callbacks do not call the worker (they do not in hnsd). Submitted requests carry a number
(`cb_data`); the theorems count, so numbers may repeat.

C44 in parts: no step is undefined (`C44_defined`); never more callbacks than accepted requests,
in the order of the answers (`C44_once`); where nothing is left to do exactly as many
(`C44_settled`), and after release (`C44_freed`); the threads can always get there
(`C44_settles`); the thread leaves only when nothing is pending (`C44_exit`).

Found: `hsk_rs_worker_resolve` does not free the response the library refuses
(`C61_leak_false`); `hsk_rs_worker_init` does not set `rs_quit_async` before the first failure
that frees it (`C61_init_false`).

### rs.c (`Model/Rs`)

Modelled: what is done with a packet, and with a result of the library. The library's result is
data (`Result`); which results arrive and when is `Model/RsWorker`. Left out: setting options of
the library, the socket.

Found: (1) `hsk_rs_respond` hands on data the library found bogus; the library's `rcode` is 0
for such answers, and the code looks at `bogus` only to clear the AD bit (`C62_bogus_false`).
(2) libunbound passes a null result whenever it reports an error (`process_answer_detail`), so
the SERVFAIL branch for `status != 0` is never taken with it and the client gets no answer
(`C62_silent_false`). That libunbound does this is not part of the model.

### sha256.c, hash.c (`Model/Words`, `Model/Sha256`, `Model/Hash`)

All of sha256.c; of hash.c SHA-256, the double hash, HMAC and HKDF. The machine is little-endian
(HSK_BIG_ENDIAN not defined). The unrolled calls of the ROUND macros are a recursion; `arg` says
which variable is which argument of the n-th call. Memory is bytes: the context's message buffer
starts with arbitrary contents, and a `memcpy` that does not fit is `ub`. The alignment of pointers,
which chooses between in-place and copied blocks, is an argument. `length` wraps at 2^64.
The two loops that fill `pad` in HMAC are one expression. `memcpy` of no bytes from NULL, which
HKDF is called with (brontide.c:499), is taken to do nothing.
The specification (`Spec/Sha256`, `Spec/Hmac`) computes the constants of FIPS 180-4 as roots of primes
and is checked on published examples beside the theorems.

### chacha20.c, poly1305.c, poly1305-64.h, aead.c (`Model/ChaCha`, `Model/Poly1305`, `Model/Aead`)

chacha20.c: setup for keys of 32 bytes and nonces of 12 (the only sizes used; others are in the model as
far as the code distinguishes them), the counter, blocks, and encryption with key stream kept between calls.
Poly1305: the variant with 64-bit limbs and the compiler's 128-bit integers, which overflow at 2^128 in
the model; `poly1305-32.h` and the branch for MSVC are not modelled. Writing past the 16 bytes of the
buffer or the 64 of the key stream is `ub`. aead.c: all but `hsk_aead_auth`, which is called nowhere; its assertion that no
additional data comes after text is `ub` when it fails. The contexts' contents before setup are arbitrary.
The specifications are RFC 8439 over numbers; they are checked on its examples. `Spec/Transport` puts
hash and cipher in place of the parameters of the transport; what is left is `Curve`.

### blake2b.c, sha3.c, the rest of hash.c (`Model/Blake2b`, `Model/Sha3`, `Model/HeaderHash`)

The keyed hashes, `hsk_blake2b`, `hsk_keccak_final` and `hsk_cshake_final`, none of which the daemon calls, are
in `Model/KeyedHash` (C98). The unrolled macros are recursions over the same calls. Calls in `assert` (as around
`hsk_blake2b_init` in header.c, proof-radix.c, sig0.c and hash.c) have effects: with NDEBUG the hashes would
be made in contexts never initialised. The model is of a build without NDEBUG, in which a failed call aborts (`ub`).
`Spec/Blake2b` takes its constants from square roots of primes, `Spec/Sha3` the rotations and round constants from
the recurrences of the standard; both are checked on published examples. `Spec/BlockHash` is the hash of a header.

### genesis.h, constants.h, checkpoints.h (`Model/Network`, `Model/Checkpoint`)
The arrays are transcribed as numbers; `checkpointHeaders` holds each header as the number whose
little-endian bytes it is. The hashes of the genesis blocks and of the 150 headers are computed in
the kernel by `Lemmas/FastBlake`, `FastKeccak` and `FastHash`, which are proved equal to the models.
C72_abort is C53_abort with an actual header against the actual checkpoint: it names the first header
of the checkpoint as its parent, carries the least difficulty that can be written down, and its hash
meets that by the first try.

### ecc.c, the trust anchor (`Model/Ecc`, `Model/DnssecEnv`)
ecc.c for the curve the build selects (P-256), with the compiler's 128-bit integers. Modelled: everything
`hsk_ecc_make_pubkey` and `hsk_ecc_sign` reach. Not modelled: `hsk_ecc_make_key`, `hsk_ecc_make_pubkey_compressed`, `hsk_ecc_ecdh`,
`hsk_ecc_verify`, point decompression (called nowhere), the other curves, the Windows source of random numbers, and the
variant without 128-bit integers (there, vli_mult finds the carry by comparing only the high halves,
`r01.m_high < product.m_high`, which misses a carry if they are equal; not examined further).
The random numbers are a parameter: the n-th call of get_rand_num gives a number or fails. `p.x` before the first
assignment is `none`; reading it is `ub`. The signature routine and the ladder are on lists of digits; that each has
four (or eight) is proved, so there is no access out of bounds.
`Spec/Ecc` has the curve and ECDSA over Mathlib's `WeierstrassCurve.Affine.Point`; that p and n are prime, that the base point
has order n, and what the two built-in keys are times the base point are theorems.
Disagreements: the ladder starts at 2, so the private key 1 gets the public key of 3 and the key n that of 2, and
n - 1 gets none (C73_wrong, C73_exceptions); the same happens to the numbers drawn for a signature, which then is invalid (C74_draw_one,
C74_draw_order); a second half of zero is not rejected (C74_second_zero); if the first number drawn is zero, `continue` in the
do-while loop evaluates its condition on `p.x`, which was never assigned (C74_draw_zero). All have negligible probability.

### ec.c and secp256k1 (`Model/Elligator`, `Model/Ec`, `Model/EcOps`, `Model/Ecdsa`, `Model/SecpHash`, `Model/Field52`, `Model/Ec52`, `Model/Scalar64`, `Model/Group52`, `Model/EcmultConst`, `Model/EcWords`, `Model/EcmultGen`, `Model/EcmultTable`, `Model/EcdsaWords`)
Modelled: `elligator_impl.h` without `hsk_secp256k1_ec_pubkey_from_uniform` and `_to_uniform` (called nowhere), the square root and
the inverse of `field_impl.h` with their chains, `gej_add_ge`, `ge_set_gej` and `ge_set_xo_var` of `group_impl.h`, parsing and
serializing of keys (33 bytes), and of `ec.c` what the transport calls.
Simplified: field elements are residues there. `Model/Field52` has them as five words of 64 bits, as configured where the compiler
has 128-bit integers (`field_5x52_impl.h`, `field_5x52_int128_impl.h`; not the assembler of `field_5x52_asm_impl.h`, nor `field_10x26_impl.h`), and
`Model/Ec52` the map, its inverse, the addition, and the keys over these words (C80, C81). The flags `magnitude` and `normalized` of debug
builds are not modelled; `Mag` and `Normal` of `Spec/Field52` take their place in the theorems. `ecmult_gen` and `ecmult_const` are multiplication in Mathlib's group; the coordinates of an infinite result are
taken to be 0. The library's own SHA-256 and HMAC are those of the standard, which is proved of `Model/SecpHash` (C79): there the words of
a context and the 64 bytes of its buffer are modelled, with arbitrary contents at the start. What the deterministic generator of `hash_impl.h` yields in
`hsk_secp256k1_ec_pubkey_to_hash` is a parameter in `Model/Elligator` and computed in `Model/Ec52`; the loop there has a bound, after which the model
fails.
A failed `ARG_CHECK` calls `abort`: `ub`.
`Spec/Secp` has the curve over Mathlib's `WeierstrassCurve.Affine.Point`, `Spec/Svdw` the map as the paper defines it.
Disagreements: the number 0 is not treated. Its image is the pair of 0 and 7^((p+1)/4), which is not on the curve
since 7 is no square. With both halves 0 the sum has the abscissa 0, and loading the key aborts (C76_false): a node
that answers a connection with 64 bytes of zero ends the process of hnsd (C77_false). With one half 0 the result is a key
that no point may have (C76_false_key), and an encoding made with 0 drawn is not decoded to its key (C76_false_draw,
of negligible probability). Opposite halves are refused (C76_gap), which `hsk_brontide_recv_act_two` does not notice
(C60_false, C77_false).
`fe_verify` allows the magnitude 2048, at which the first carry of the normalisation is lost (C80_limit); the program stays far below.
`Model/Scalar64` has the scalars as four words of 64 bits, with the macros `muladd`, `sumadd`, `extract` on an accumulator of three words (C85); flags
used in `&`, `|` and `~` only are Booleans. `scalar_mul_shift_var` and the split functions, for the endomorphism only, are left out.
`Model/Group52` has the points in Jacobian coordinates over the words of `Model/Field52` (C86); `Spec/Group52` says which words stand for a point. A null
pointer for the quotient `rzr` is the same function with the second result ignored. `Model/EcmultConst` has `ecmult_const` with its digits and its table (C87),
`Model/EcWords` the common secret over it. Digits are integers, their `int` range being proved; the table is a list; memory that is not initialised is the
parameter `Junk`. The endomorphism (`USE_ENDOMORPHISM`) is not configured and left out.
`Model/EcmultGen` has `ecmult_gen` with the blinding of the context, and public keys over it (C88); `Model/EcmultTable` is the table of the source, copied by
`tools/table.py`. The variant that computes the table at the start is not modelled. A context's table is always built in the program (`hsk_ec_alloc`).
`Model/EcdsaWords` has signing on words (C89), with the hashes of `Model/SecpHash`.
`Model/Ecmult` has `ecmult` for one point, which is the only way it is called here, and verifying on words (C90). The scratch space and the batches for
many points are not modelled.
Signatures in `Model/Ecdsa`: scalars are residues modulo n; `ecmult` is the sum of the multiples in the group (C90 has it on words), and `gej_eq_x_var` compares the affine
abscissa. The loop over random numbers has a bound, after which the model fails (the code would go on). `hsk_ec_recover` and
`hsk_ec_verify_hash` are called nowhere in the daemon; `Model/EcRecover` has them on words (C91). `Spec/Secdsa` has validity as SEC 1 defines it, and RFC 6979.
Disagreements: a first number 0 is checked only in debug builds (`VERIFY_CHECK`), and n itself is the abscissa of a point,
so that for one pair of random numbers a signature is made that nobody accepts (C78_gap, of negligible probability). The digest goes into the
generator as it is, where RFC 6979 reduces it modulo n (C78_false): signatures are valid all the same, but for digests
from n on differ from those of other implementations.

### Options in daemon.c, hex in utils.c (`Model/Options`)
`getopt_long` is modelled as the C libraries document it (permutation of arguments, groups of letters, attached and following
arguments, names in full); abbreviation of names is a search of the whole table, and the table of the program lacks the
terminating entry, so every name that is not found in full leaves it: `ub`. `atoi` is the C standard's. Memory is a list of live
blocks; allocation succeeds. `fork` and the parent's number are parameters; `setsid`, `chdir` and `freopen` succeed. Texts printed are left out.
Disagreements: with `-k` the pointer `opt->key` points into the options themselves and is freed at the end (C82_free_false); the
table (C82_unknown_false); `-p` with a number above an `int` (C82_number_false); `-d -l` as child of process 1 (C82_log_false).

### Seeds and agent in pool.c (`Model/Seeds`)
The text is a list of bytes without NUL. Clock and random numbers are parameters for each address offered. That `inet_pton` refuses
texts with commas is a hypothesis.
Disagreements: when a seed is refused (too long, no address, or known) the start of the piece stays where it is, so that all later
pieces contain a comma and are refused too (C83_bad_false, C83_known_false).

### Start and stop (`Model/Daemon`)
Objects have a status (raw memory, handle known to the loop, being closed, released) and pointers may be unassigned. Every call that
may fail for outside reasons is a parameter; allocation succeeds; stopping a timer or a socket succeeds. Peers, requests, caches and the
chain are left out (the worker's requests are those of C61), and so is the concurrency of the resolver's thread, which only appears as the event of
its end.
Disagreements: a start that fails before `hsk_pool_open` (`-x` with a missing directory, a checkpoint that cannot be used) ends in
`hsk_pool_close` with a null timer (C84_prefix_false); `hsk_signals_init` and `hsk_rs_worker_init` clean up pointers they have not
assigned yet (C84_signal_false, C84_worker_false); so does `hsk_pool_alloc` (C84_pool_false). After a failed `hsk_daemon_init` the loop is not run, so that the
handles for signals stay in the state of being closed until the process ends.

### siphash.c, error.c (`Model/Siphash`)
All functions, on a little-endian machine. A read outside the given bytes is `ub`. The daemon does not call siphash.c, which is part of the library.
`Spec/Siphash` is SipHash-2-4 over bit vectors, checked on the examples of its authors.
Disagreements: the number of blocks has 32 bits (C92_long_false); two texts are misspelt (C93_names_false). C92: induction over blocks and over
the cases of the switch, with the words of the padded message. C93: cases.

### hsk_date (`Model/Resource`, `Spec/Calendar`)
The conversion of the time to an `int`, which C leaves to the implementation, is taken modulo 2^32 as all compilers do. The products with 1e6 and
so on are exact in a `double`.
Disagreement: from 2^31 seconds on (2038) the date is wrong and the serial number goes back (C94_date_false).

### C95: where the resolver finds the root zone (Model/Stub.lean)

Modelled: src/addr.c:498-524, 577-595, 617-631 and of src/rs.c the lines that make the text for `ub_ctx_set_stub` from the address given to
`hsk_rs_init`. Not modelled: the rest of those two functions (calls of libunbound), families other than the two of IP, the scope of link-local
addresses. libuv's conversions are parameters with the assumptions of C54 (`InetOK`).
Disagreements: a port 0 is accepted for the name server and then replaced by 5349 in the text, though the server is bound to whatever port the
system chose (C95_port_false); for Tor addresses the text is made from the wrong bytes (C95_tor_false).

### C96: random numbers (Model/Random.lean)

Modelled: src/utils.c:89-101. The system's source is an argument for each call; that it is uniform with independent calls is the reading of the
theorems, which count the tuples of draws that give a result. Disagreement: from a source of 15 bits (`rand` on Windows) two bits of `hsk_random`
are always 0, though the comment there says otherwise (C96_windows_false). Outside the model: where `configure` finds no `arc4random`, the source is
`random`, and nothing in the program calls `srandom`, so every run draws the same numbers (nonces, choices of peers and addresses).

### C97: the rest of the big numbers (Model/BnMore.lean)

Modelled: `hsk_bn_to_int`, `neg`, `dec`, `and`, `xor`, `mod`, `pow`, `rshift` and `_rshift_word`. Part of the library; the daemon calls none of them. Results go
to a number other than the arguments. Hexadecimal text is C101.
Disagreements: shifts to the right by 32 bits or more are wrong, and from 512 on they read outside the number (C97_rshift_false); `hsk_bn_neg` is the
complement (C97_neg_false).

### C98: keyed hashes (Model/KeyedHash.lean)

Modelled: `hsk_blake2b_init_key`, `hsk_blake2b`, `hsk_hash_blake2b_key`, `hsk_keccak_final`, `hsk_cshake_final`, `hsk_hash_sha3_key`. Part of the library; the
daemon calls none of them. The specifications are RFC 7693 with a key and KMAC256 of SP 800-185, each checked on a published answer. Clearing memory is left
out. With NDEBUG the calls within `assert` would vanish, as for the hashes without a key.

### C99: lists of records and of texts (Model/RrList.lean)

Modelled: all routines on `hsk_dns_rrs_t`, which those on `hsk_dns_txts_t` repeat word for word, and the loops of rs.c that empty two sections. Freeing a record is
the list of pointers freed. Disagreement: `hsk_dns_rrs_unshift` (which the daemon does not call) copies the first pointer over all others and stores the new one
behind the end, so that records are lost and later freed twice; in a list of 254 it writes outside the array (C99_unshift_false, _empty_false, _full_false). Not a
fault: an index that is negative beyond the size is harmless, since the comparison is of unsigned numbers.

### C100: names made readable (Model/Sanitize.lean)

Modelled: `hsk_dns_name_sanitize`, which the daemon does not call, with an array of 1010 (`HSK_DNS_MAX_SANITIZED` and the NUL). Names are given by their labels, and
written as the program holds them (0xfe for a dot, 0xff for zero; see C22 on what that loses). Disagreements: octets from 127 on do not come out as three digits, since
the middle one is `c / 10` and not `c / 10 % 10` (C100_octets_false); the size is checked before a character of up to four bytes is written, so that a text longer than
a name can be is written past the end (C100_long_false).

### C101: big numbers as text (Model/BnText.lean)

Nothing in hnsd calls these two. `sscanf` with `%8x` is a parameter (`Scans`). Found: digits in front of a multiple of eight are ignored, "ff" is 0 (C101_front_false, C101_ff_false);
136 digits store a seventeenth word (C101_long_false); zero is written as nothing (C101_zero_false); with fewer than 128 digits asked for the top words are written, and
`sprintf` writes nine bytes into arrays that may be shorter (C101_short_false); what is written may have an odd length, which the reader's assertion refuses (C101_round_false).

### C102: names of the checkpoint file (Model/StorePath.lean)

`sprintf(path, "%s~%u", path, height)` reads what it writes, which C11 7.21.6.6 leaves undefined: the outcome is a parameter, `standard` (undefined) in C102_overlap_false and `Kind` (the argument is
copied first, as some libraries happen to do) elsewhere. C18 and C19 take the two names as given. The reserve of 32 bytes is three short for networks with seven letters and ten digits of
height; it is overrun from nine digits on (C102_reserved_false). `lstat` is the parameter `there`.
