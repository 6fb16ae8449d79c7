{"id": "C01", "title": "Integer to octets to integer is the identity", "statement": "For every non-negative integer n and every padto for which int_to_string(n, padto) returns, string_to_int of the result is n. Holds for the copies in cipher/encoding.py, cipher/common.py and ecc/ecc.py.", "quantifier": "all non-negative integers n, all padto (None or any integer)", "why_tests_cant": "The input domain is infinite; a test samples a few integers and never all sizes.", "anchors": ["cipher/encoding.py:int_to_string", "cipher/encoding.py:string_to_int", "cipher/common.py:int_to_string", "ecc/ecc.py:int_to_string"]}
{"id": "C02", "title": "Octets to integer to octets is the identity when padded to the original length", "statement": "For every non-empty octet string s, int_to_string(string_to_int(s), padto=len(s)) == s; string_to_int never raises. With the ecc/ecc.py copy this fails for all-zero strings of length at least 2 (it returns one zero octet), and holds for every other string.", "quantifier": "all octet strings", "why_tests_cant": "The input domain is infinite; the failing inputs of the ecc copy are a thin set a random test does not hit.", "anchors": ["cipher/encoding.py:int_to_string", "cipher/encoding.py:string_to_int", "ecc/ecc.py:int_to_string", "ecc/ecc.py:string_to_int"]}
{"id": "C03", "title": "int_to_string padding contract", "statement": "int_to_string(n, padto) raises ValueError exactly when n < 0; with padto None or 0 it returns the shortest big-endian octet string (one zero octet for 0); with non-zero padto it returns exactly padto octets when n fits in padto octets and raises AssertionError otherwise (always for negative padto).", "quantifier": "all integers n, all padto", "why_tests_cant": "The input domain is infinite; the boundary n = 256^padto exists for every padto.", "anchors": ["cipher/encoding.py:int_to_string", "cipher/common.py:int_to_string"]}
{"id": "C04", "title": "Base-N text round trip for any alphabet", "statement": "For every alphabet of at least two distinct symbols and every octet string s of length L >= 1, base_N_decode(base_N_encode(s, alphabet), alphabet, padto=L) == s. The encoder always terminates and only emits alphabet symbols.", "quantifier": "all alphabets with >= 2 distinct symbols, all non-empty octet strings", "why_tests_cant": "Quantifies over alphabets and strings; tests use three fixed alphabets and a single 16 octet value.", "anchors": ["cipher/encoding.py:base_N_encode", "cipher/encoding.py:base_N_decode"]}
{"id": "C05", "title": "b27/b85/b94 round trip holds exactly for strings without leading zero octets, whatever padto is", "statement": "b27decode(b27encode(s), padto) == s if and only if s is the single zero octet or s is non-empty with non-zero first octet; the result does not depend on padto (the argument is ignored). Same for b85 and b94.", "quantifier": "all octet strings, all padto", "why_tests_cant": "The 1/256 fraction of strings with a leading zero octet is missed by the single-value test in the module.", "anchors": ["cipher/encoding.py:b27decode", "cipher/encoding.py:b85decode", "cipher/encoding.py:b94decode"]}
{"id": "C06", "title": "Base-N decode is positional and rejects foreign characters", "statement": "base_N_decode(text, alphabet) raises ValueError exactly when text contains a character outside the alphabet; otherwise the decoded integer is the positional base-len(alphabet) value of the symbol indexes.", "quantifier": "all texts, all alphabets with distinct symbols", "why_tests_cant": "The input domain is infinite; every foreign character at every position must be rejected.", "anchors": ["cipher/encoding.py:base_N_decode"]}
{"id": "C07", "title": "Base-N encode after decode on text", "statement": "For a text over an alphabet of >= 2 distinct symbols, encoding the decoded octets gives back the text with its leading zero-value symbols removed, so it is the identity exactly on texts that do not start with the zero symbol. Distinct canonical texts decode to distinct octet strings. The three shipped alphabets have 27, 85 and 94 distinct symbols, all graphic ASCII characters; the base 94 alphabet is exactly the graphic ASCII characters in code order and the base 27 alphabet has only digits and capital letters.", "quantifier": "all texts over all alphabets", "why_tests_cant": "The input domain is infinite; a test cannot range over every text.", "anchors": ["cipher/encoding.py:base_N_encode", "cipher/encoding.py:base_N_decode", "cipher/encoding.py:_b27chars", "cipher/encoding.py:_b85chars", "cipher/encoding.py:ascii_printable"]}
{"id": "C08", "title": "xor is an involution on equal lengths and refuses other lengths", "statement": "xor(a,b) raises AssertionError iff the lengths differ; otherwise it has the common length, is commutative, and xor(xor(a,b),b) == a. xor_min never raises and equals xor of the two strings truncated to the shorter length.", "quantifier": "all pairs of octet strings", "why_tests_cant": "The input domain is infinite; equal- and unequal-length pairs are unbounded.", "anchors": ["cipher/common.py:xor", "cipher/common.py:xor_min", "cipher/aes_cmac.py:xor"]}
{"id": "C09", "title": "aes_cmac computes RFC 4493 CMAC or raises AssertionError, and exactly when", "statement": "For every 128-bit block cipher behaviour and key, aes_cmac(key, M) returns the RFC 4493 CMAC of M unless the subkey selected for M (K1 if M is a non-empty multiple of 16 octets, else K2) is numerically below 2^120, in which case it raises AssertionError because the subkey is emitted with fewer than 16 octets.", "quantifier": "all block ciphers, keys and messages of any length", "why_tests_cant": "The failing subkeys occur with probability 2^-8 per key; a test vector with a fixed key cannot reveal or exclude it.", "anchors": ["cipher/aes_cmac.py:aes_cmac", "cipher/aes_cmac.py:subkey", "cipher/aes_cmac.py:pad"]}
{"id": "C10", "title": "CMAC subkeys are successive doublings in GF(2^128)", "statement": "As integers, the two subkeys are x*L and x^2*L in GF(2)[x]/(x^128+x^7+x^2+x+1), where L is the encryption of the zero block.", "quantifier": "all ciphers and keys", "why_tests_cant": "Needs the algebraic statement for all 2^128 values of L.", "anchors": ["cipher/aes_cmac.py:subkey"]}
{"id": "C11", "title": "aes_cmac with a substitute cipher still derives subkeys with AES", "statement": "aes_cmac(key, M, CIPH=X) uses X for chaining but AES for the subkeys, so with any X it equals CMAC built from X-chaining and AES-subkeys, and there are ciphers X for which the result is not the CMAC of X.", "quantifier": "all pairs of ciphers, keys, messages", "why_tests_cant": "A parameter nobody passes in the tests.", "anchors": ["cipher/aes_cmac.py:aes_cmac", "cipher/aes_cmac.py:subkey"]}
{"id": "C12", "title": "SIV doubling is multiplication by x in GF(2^128)", "statement": "dbl(s) on a 16 octet string returns the 16 octet string whose polynomial is x*s mod x^128+x^7+x^2+x+1; it is a bijection on 16 octet strings; other lengths raise AssertionError.", "quantifier": "all octet strings", "why_tests_cant": "The domain has 2^128 elements.", "anchors": ["cipher/aes_siv.py:dbl"]}
{"id": "C13", "title": "s2v equals RFC 5297 S2V", "statement": "For every block cipher and key for which aes_cmac does not raise because of a short subkey (C09), s2v(key, [S1..Sn]) equals S2V of RFC 5297 over CMAC, for every number and every length of components, including the empty list. Whatever the subkeys are, a value returned by s2v is S2V, and the only exception is AssertionError.", "quantifier": "all block ciphers, keys and lists of octet strings", "why_tests_cant": "Unbounded lists of unbounded strings; tests use two RFC vectors.", "anchors": ["cipher/aes_siv.py:s2v", "cipher/aes_siv.py:pad"]}
{"id": "C14", "title": "SIV decryption inverts encryption", "statement": "If siv_encrypt(key, pt, ad) returns c then siv_decrypt(key, c, ad) returns pt, for every cipher behaviour, key, plaintext and associated data list.", "quantifier": "all keys, plaintexts, associated data lists, cipher behaviours", "why_tests_cant": "The input domain is infinite; round trip must hold for every length and content.", "anchors": ["cipher/aes_siv.py:siv_encrypt", "cipher/aes_siv.py:siv_decrypt", "cipher/aes_siv.py:AES_SIV"]}
{"id": "C15", "title": "SIV decryption accepts exactly the outputs of encryption", "statement": "siv_decrypt(key, c, ad) returns pt if and only if siv_encrypt(key, pt, ad) returns c; every other c makes it raise. In particular no modified ciphertext, IV or associated data is released unless it is itself an encryption output.", "quantifier": "all octet strings c, keys, associated data lists, cipher behaviours", "why_tests_cant": "A negative statement about every forged input.", "anchors": ["cipher/aes_siv.py:siv_decrypt", "cipher/aes_siv.py:siv_encrypt"]}
{"id": "C16", "title": "SIV ciphertext length and short inputs", "statement": "A returned SIV ciphertext is exactly 16 octets longer than the plaintext; siv_decrypt never returns for inputs shorter than 16 octets; for plaintexts below 2^31 blocks encryption never fails because of the counter.", "quantifier": "all keys, plaintexts, ciphertexts", "why_tests_cant": "The input domain is infinite; boundary at every length.", "anchors": ["cipher/aes_siv.py:siv_encrypt", "cipher/aes_siv.py:siv_decrypt"]}
{"id": "C17", "title": "SIV counter blocks never repeat within a message", "statement": "The counter blocks fed to the cipher for one message are pairwise distinct 16 octet strings and match the RFC 5297 CTR counters (bits 31 and 63 cleared, then incremented): the ciphertext is the plaintext xored with the encryptions of exactly these blocks, one for every 16 octets begun.", "quantifier": "all IVs and message lengths", "why_tests_cant": "Needs all IVs; the carry behaviour is untested.", "anchors": ["cipher/aes_siv.py:siv_encrypt"]}
{"id": "C18", "title": "Quarter round is the RFC 7539 quarter round and is a permutation", "statement": "On 32-bit words chacha_q_round equals the RFC 7539 quarter round on 32-bit machine words (add, xor, rotate), returns 32-bit words, and is a bijection of 128-bit states.", "quantifier": "all four-tuples of 32-bit words", "why_tests_cant": "2^128 inputs.", "anchors": ["cipher/chacha_poly.py:chacha_q_round", "cipher/chacha_poly.py:quarter_round"]}
{"id": "C19", "title": "chacha20_block is the RFC 7539 block function", "statement": "For every 32 octet key, 12 octet nonce and counter below 2^32, ChaCha(key, counter, nonce).chacha20_block() equals the RFC 7539 block function on 32-bit words, is 64 octets and leaves the object unchanged.", "quantifier": "all keys, nonces, counters < 2^32", "why_tests_cant": "Only a few test vectors can be run.", "anchors": ["cipher/chacha_poly.py:ChaCha.initialize", "cipher/chacha_poly.py:ChaCha.chacha20_block", "cipher/chacha_poly.py:inner_block"]}
{"id": "C20", "title": "ChaCha encryption is xor with the key stream and is self-inverse", "statement": "encrypt(pt) equals pt xor the concatenated key stream blocks for counters c, c+1, ...; its length is len(pt); decrypting with a freshly initialised object of the same key, counter and nonce returns pt.", "quantifier": "all keys, nonces, counters and plaintexts of any length", "why_tests_cant": "The input domain is infinite; lengths around block boundaries are unbounded.", "anchors": ["cipher/chacha_poly.py:ChaCha.encrypt", "cipher/chacha_poly.py:ChaCha.decrypt"]}
{"id": "C21", "title": "Chunked encryption law", "statement": "Encrypting a then b with one object equals encrypting a+b at once whenever len(a) is a multiple of 64; after any call the counter has advanced by ceil(len/64), so after a partial block the rest of that key stream block is skipped. The state after any sequence of calls depends only on the sum of these block counts.", "quantifier": "all sequences of encrypt calls with all chunkings", "why_tests_cant": "Quantifies over call histories.", "anchors": ["cipher/chacha_poly.py:ChaCha.encrypt"]}
{"id": "C22", "title": "The block counter is not reduced modulo 2^32", "statement": "The counter word grows without reduction modulo 2^32, whatever sequence of calls is made. For c < 2^32 the block with counter 2^32+c equals the RFC 7539 block with counter c (so the key stream repeats) whenever c has the parity of the first key octet; for the other parity there are keys whose block 2^32 is not the RFC 7539 block 0, so the code does not do counter arithmetic modulo 2^32 either.", "quantifier": "all keys, nonces, call sequences, counters c < 2^32", "why_tests_cant": "Reaching it needs 256 GB of data in one object.", "anchors": ["cipher/chacha_poly.py:ChaCha.encrypt", "cipher/chacha_poly.py:chacha_q_round"]}
{"id": "C23", "title": "ChaCha constructor validation", "statement": "ChaCha(key, counter, nonce) raises AssertionError iff key is not 32 octets or a non-empty nonce is not 12 octets; an empty or missing nonce is replaced by 12 octets from the system random source.", "quantifier": "all keys, nonces, counters, random outcomes", "why_tests_cant": "The silent random nonce cannot be seen in a fixed test.", "anchors": ["cipher/chacha_poly.py:ChaCha.__init__", "cipher/chacha_poly.py:ChaCha.initialize"]}
{"id": "C24", "title": "Key stream reuse leaks the xor of plaintexts", "statement": "Two plaintexts encrypted from the same key, counter and nonce satisfy c1 xor c2 == p1 xor p2 on the common prefix, and flipping bits of a ciphertext flips exactly those plaintext bits.", "quantifier": "all keys, nonces, counters, pairs of plaintexts", "why_tests_cant": "A relation between all pairs of runs.", "anchors": ["cipher/chacha_poly.py:ChaCha.encrypt"]}
{"id": "C25", "title": "poly1305_mac is the RFC 7539 polynomial", "statement": "For every message and 32 octet key, poly1305_mac equals ((sum over i of (m_i + 2^(8*len m_i)) * r^(q-i+1) mod 2^130-5) + s) mod 2^128 in little-endian octets, where m_i are the 16 octet blocks and r is the clamped first half of the key.", "quantifier": "all messages of any length, all 32 octet keys", "why_tests_cant": "Unbounded messages; the reduction is only visible for rare accumulator values.", "anchors": ["cipher/chacha_poly.py:poly1305_mac", "cipher/chacha_poly.py:le_bytes_to_num", "cipher/chacha_poly.py:num_to_16_le_bytes"]}
{"id": "C26", "title": "clamp clears exactly the RFC 7539 bits", "statement": "clamp(r) for r < 2^128 keeps every bit except the top four bits of octets 3, 7, 11, 15 and the bottom two bits of octets 4, 8, 12; it is idempotent and the result is below 2^124.", "quantifier": "all 128-bit r", "why_tests_cant": "2^128 inputs.", "anchors": ["cipher/chacha_poly.py:clamp"]}
{"id": "C27", "title": "Little-endian conversions", "statement": "le_bytes_to_num of num_to_16_le_bytes(n) is n mod 2^128 (and mod 2^64 for num_to_8_le_bytes); num_to_16_le_bytes(le_bytes_to_num(b)) == b for 16 octet b; tags are always 16 octets; le_bytes_to_num raises ValueError exactly on the empty string.", "quantifier": "all naturals, all octet strings", "why_tests_cant": "The input domain is infinite; all values.", "anchors": ["cipher/chacha_poly.py:le_bytes_to_num", "cipher/chacha_poly.py:num_to_16_le_bytes", "cipher/chacha_poly.py:num_to_8_le_bytes"]}
{"id": "C28", "title": "Poly1305 forgery bound", "statement": "For two distinct messages of at most 16*q octets and any tag difference, the number of clamped r for which the two tags differ by that amount modulo 2^128 is at most 8*q (out of 2^106).", "quantifier": "all pairs of distinct messages, all tag differences", "why_tests_cant": "A counting statement over 2^106 keys.", "anchors": ["cipher/chacha_poly.py:poly1305_mac"]}
{"id": "C29", "title": "poly1305_mac key length handling", "statement": "poly1305_mac raises ValueError iff the key has fewer than 17 octets; keys of 17 to 31 octets are accepted silently and behave as the key zero-extended to 32 octets; octets beyond the 32nd are ignored.", "quantifier": "all messages and keys of any length", "why_tests_cant": "Every key length.", "anchors": ["cipher/chacha_poly.py:poly1305_mac", "cipher/chacha_poly.py:le_bytes_to_num"]}
{"id": "C30", "title": "AEAD encryption is RFC 7539 section 2.8", "statement": "For a 32 octet key and constant+iv of 12 octets ChaCha20_AEAD.encrypt(aad, iv, pt) returns (ciphertext, tag) equal to the RFC 7539 construction for every aad and every plaintext shorter than 2^32-1 blocks.", "quantifier": "all keys, nonces, aad, plaintexts", "why_tests_cant": "The input domain is infinite; unbounded aad and plaintext.", "anchors": ["cipher/chacha_poly.py:ChaCha20_AEAD.encrypt", "cipher/chacha_poly.py:poly1305_key_gen", "cipher/chacha_poly.py:pad16"]}
{"id": "C31", "title": "AEAD decrypt recovers the plaintext", "statement": "The first component of decrypt(aad, iv, c) is the plaintext whenever c is the ciphertext component of encrypt(aad, iv, pt) (any aad), with the same object.", "quantifier": "all keys, nonces, aad, plaintexts", "why_tests_cant": "The input domain is infinite; all lengths.", "anchors": ["cipher/chacha_poly.py:ChaCha20_AEAD.decrypt"]}
{"id": "C32", "title": "AEAD decrypt does not authenticate", "statement": "decrypt never rejects anything: for valid key and nonce it returns for every ciphertext, and the tag it returns is the MAC over the recovered plaintext rather than over the received ciphertext, so comparing it with the transmitted tag is a comparison of MACs of two different strings.", "quantifier": "all keys, nonces, aad, ciphertexts", "why_tests_cant": "A statement about every forged input.", "anchors": ["cipher/chacha_poly.py:ChaCha20_AEAD.decrypt"]}
{"id": "C33", "title": "The AEAD MAC input is injective", "statement": "Two (aad, ciphertext) pairs with lengths below 2^64 that give the same string under the MAC are equal: moving octets between aad and ciphertext always changes the authenticated string.", "quantifier": "all pairs of (aad, ciphertext)", "why_tests_cant": "All pairs of inputs.", "anchors": ["cipher/chacha_poly.py:ChaCha20_AEAD.encrypt", "cipher/chacha_poly.py:pad16", "cipher/chacha_poly.py:num_to_8_le_bytes"]}
{"id": "C34", "title": "ChaCha_Poly_AEAD is unusable", "statement": "ChaCha_Poly_AEAD.encrypt and decrypt raise for every input (super() without arguments is a TypeError in Python 2; tag_length is undefined).", "quantifier": "all keys, aad, iv, inputs", "why_tests_cant": "Every input.", "anchors": ["cipher/chacha_poly.py:ChaCha_Poly_AEAD"]}
{"id": "C35", "title": "AEAD with empty constant and iv draws two independent nonces", "statement": "If constant+iv is empty, key generation and encryption use two separate random nonces: the tag key comes from the first and the key stream from the second, neither of which is returned.", "quantifier": "all keys, aad, plaintexts, random outcomes", "why_tests_cant": "Depends on the random source.", "anchors": ["cipher/chacha_poly.py:ChaCha20_AEAD.encrypt", "cipher/chacha_poly.py:ChaCha.__init__"]}
{"id": "C36", "title": "HMAC equals RFC 2104 for keys up to the block size", "statement": "For any hash function and key of length at most the block size B, HMAC(hash, key)(data) equals H((K0 xor opad) || H((K0 xor ipad) || data)) with K0 the zero-padded key.", "quantifier": "all hash functions, keys with len <= B, data", "why_tests_cant": "The input domain is infinite; any hash, any key, any message.", "anchors": ["hash/hmac.py:HMAC.setKey", "hash/hmac.py:HMAC.digest", "hash/hmac.py:HMAC.reset"]}
{"id": "C37", "title": "HMAC with long keys deviates from RFC 2104", "statement": "For keys longer than B the hashed key is not zero-padded to B: the result is H((H(K) xor opad) || H((H(K) xor ipad) || data)) with pads only as long as the digest, and it equals RFC 2104 for all data if the digest length is B; if the digest is shorter, a result equal to RFC 2104 makes the two inputs of the outer hash a collision, and there are hash functions for which it differs.", "quantifier": "all hash functions, keys with len > B", "why_tests_cant": "No test uses a long key against an independent implementation.", "anchors": ["hash/hmac.py:HMAC.setKey"]}
{"id": "C38", "title": "HMAC streaming: any operation history refines the one-shot MAC", "statement": "After any sequence of setKey, reset, update, digest and call operations, digest() returns the MAC under the current key of the concatenation of the data supplied by update since the last reset point, and does not change the state.", "quantifier": "all operation sequences, all hash functions", "why_tests_cant": "Unbounded histories.", "anchors": ["hash/hmac.py:HMAC.setKey", "hash/hmac.py:HMAC.update", "hash/hmac.py:HMAC.digest", "hash/hmac.py:HMAC.reset"]}
{"id": "C39", "title": "Unkeyed HMAC raises", "statement": "An HMAC built without key raises on update, digest, reset and call in every history that does not contain a setKey.", "quantifier": "all histories without setKey", "why_tests_cant": "Unbounded histories.", "anchors": ["hash/hmac.py:HMAC.__init__", "hash/hmac.py:HMAC.update", "hash/hmac.py:HMAC.digest"]}
{"id": "C40", "title": "pbkdf2 equals RFC 2898", "statement": "For iterations >= 1, password of at most 63 octets, and 0 <= keySize <= 10000, the key computed is T_1||T_2||... truncated to keySize with T_i = U_1 xor ... xor U_c, U_1 = PRF(P, S||INT(i)), U_j = PRF(P, U_{j-1}); iterations < 1 behaves as 1. On interpreters where range() rejects floats (2.7 on) every call with those arguments raises TypeError instead.", "quantifier": "all passwords, salts, iteration counts, key sizes, PRFs", "why_tests_cant": "The input domain is infinite; iteration counts and key sizes.", "anchors": ["hash/pbkdf2.py:pbkdf2"]}
{"id": "C41", "title": "pbkdf2 output length and prefix property", "statement": "The derived key has exactly keySize octets and a shorter derived key is a prefix of a longer one; password longer than 63 octets or keySize > 10000 raise.", "quantifier": "all arguments", "why_tests_cant": "The input domain is infinite; all sizes.", "anchors": ["hash/pbkdf2.py:pbkdf2"]}
{"id": "C42", "title": "dot11PassPhraseToPSK domain", "statement": "dot11PassPhraseToPSK raises AssertionError iff the pass phrase length is outside 8..63, and otherwise is pbkdf2 with 4096 iterations and 32 octets.", "quantifier": "all pass phrases and SSIDs", "why_tests_cant": "The input domain is infinite; all lengths.", "anchors": ["hash/pbkdf2.py:dot11PassPhraseToPSK"]}
{"id": "C43", "title": "PRF output equals the 802.11i definition", "statement": "PRF(key, prefix, data, n) for n a non-negative multiple of 8 below 40960 returns exactly n/8 octets, equal to the first n/8 octets of HMAC-SHA1(key, prefix||0||data||i) for i = 0,1,2,...; shorter outputs are prefixes of longer ones.", "quantifier": "all keys, prefixes, data, lengths", "why_tests_cant": "The input domain is infinite; all lengths.", "anchors": ["hash/prf_dot11.py:PRF"]}
{"id": "C44", "title": "PRF error conditions", "statement": "PRF raises ValueError iff the bit count is not a multiple of 8 or at least 5120 octets are requested (the block index no longer fits an octet); the loop always terminates; for a negative multiple of 8 it returns the empty string.", "quantifier": "all arguments", "why_tests_cant": "The limit is far outside the tested sizes.", "anchors": ["hash/prf_dot11.py:PRF"]}
{"id": "C45", "title": "Michael equals the 802.11i specification", "statement": "Michael(key)(data) equals the 802.11i Michael function on 32-bit words for every 8 octet key and every message; the block function b is a bijection of 64-bit states and never leaves 32-bit range. update, digest and final always raise a string exception (TypeError), and calling an object without key raises AttributeError.", "quantifier": "all keys, all messages", "why_tests_cant": "The input domain is infinite; 2^64 states per step.", "anchors": ["hash/michael.py:Michael.hash", "hash/michael.py:b"]}
{"id": "C46", "title": "Michael is invertible in the key", "statement": "For every fixed message the map from 8 octet key to 8 octet MIC is a bijection, and one pass over the message in reverse order computes the key from the message and its MIC.", "quantifier": "all messages, all keys", "why_tests_cant": "2^64 keys for each message.", "anchors": ["hash/michael.py:Michael.hash", "hash/michael.py:b"]}
{"id": "C47", "title": "Michael padding is injective", "statement": "Distinct messages give distinct padded block sequences, and the padded length is a multiple of 4 with exactly len/4+2 blocks.", "quantifier": "all pairs of messages", "why_tests_cant": "All pairs.", "anchors": ["hash/michael.py:Michael.hash"]}
{"id": "C48", "title": "TKIP MIC header binding", "statement": "TKIP_MIC.hash authenticates DA||SA||priority||0 0 0||data for D3 and DA||SA||data for D2; distinct (sa, da, priority, data) give distinct authenticated strings for D3; priority outside 0..15 or addresses not of 6 octets raise AssertionError; other versions raise; calling the object raises TypeError.", "quantifier": "all addresses, priorities, data, versions", "why_tests_cant": "All inputs.", "anchors": ["hash/tkip_mic.py:TKIP_MIC.hash", "hash/michael.py:Michael.__call__"]}
{"id": "C49", "title": "TKIP mixer cache coherence", "statement": "For every history of construction, setKey, setTA and newKey, each newKey(pn) returns phase2(tk, phase1(tk, ta, pn), pn) for the current tk and ta: the phase-1 cache is never stale.", "quantifier": "all histories of setKey, setTA, newKey", "why_tests_cant": "Stateful cache over unbounded histories.", "anchors": ["hash/tkip_key_mixing.py:TKIP_Mixer"]}
{"id": "C50", "title": "Setting the packet number directly can make the TKIP cache stale", "statement": "If setPnBytes is called from outside, newKey can use a stale phase-1 key. For every S-box table, key and address: an object built for pn, then setPnBytes(pn') with other upper four octets, then setKey with the same key, returns from newKey(pn) a seed different from the uncached definition. After any history, newKey(pn) is right exactly if the cached upper octets differ from those of pn, or the packet number of the last phase-1 computation has the same upper octets as pn.", "quantifier": "all histories including setPnBytes, all S-box tables, keys, addresses", "why_tests_cant": "Needs an adversarial history.", "anchors": ["hash/tkip_key_mixing.py:TKIP_Mixer.setPnBytes", "hash/tkip_key_mixing.py:TKIP_Mixer.newKey"]}
{"id": "C51", "title": "TKIP phase 1 is a bijection on 80 bits and ignores the low sequence octets", "statement": "For every temporal key, phase1KeyMixing is a bijection from (ta, pn[2..5]) to five 16-bit words and does not depend on pn[0], pn[1].", "quantifier": "all keys, addresses, packet numbers, S-box tables", "why_tests_cant": "2^80 inputs per key.", "anchors": ["hash/tkip_key_mixing.py:phase1KeyMixing", "hash/tkip_key_mixing.py:S"]}
{"id": "C52", "title": "TKIP phase 2 equals 16-bit arithmetic and is a bijection on 96 bits", "statement": "phase2KeyMixing computes the 802.11i PPK mixing in 16-bit arithmetic although ppk[5] is not reduced when appended; the 96-bit mixing step is a bijection for every temporal key.", "quantifier": "all keys, p1k, packet numbers, S-box tables", "why_tests_cant": "2^96 states.", "anchors": ["hash/tkip_key_mixing.py:phase2KeyMixing", "hash/tkip_key_mixing.py:rotR1"]}
{"id": "C53", "title": "TKIP per-packet key format", "statement": "The returned WEP seed is always 16 octets, octets 0 and 2 are the two low packet number octets, octet 1 is (pn0|0x20)&0x7f; seeds for different packet numbers under one key and address differ, and seeds for different low counters differ whatever the keys; no history of arguments of valid sizes raises.", "quantifier": "all keys, addresses, packet numbers", "why_tests_cant": "All inputs.", "anchors": ["hash/tkip_key_mixing.py:phase2KeyMixing"]}
{"id": "C54", "title": "inverse_mod correctness", "statement": "For m >= 1: inverse_mod(a, m) raises AssertionError iff gcd(a, m) != 1; otherwise it returns r with 1 <= r <= m and a*r congruent to 1 mod m (r < m for m > 1, and 1 for m = 1). The loop always terminates. m = 0 raises ZeroDivisionError.", "quantifier": "all integers a, all m >= 1", "why_tests_cant": "The input domain is infinite; big integers.", "anchors": ["ecc/numbertheory.py:inverse_mod"]}
{"id": "C55", "title": "gcd and lcm", "statement": "gcd2 of non-negative arguments is the greatest common divisor; for arbitrary signs its absolute value is; gcd over any argument list is the gcd of the list; lcm over any list of positive integers is the least common multiple; termination for all integers; lcm2(0,0) raises ZeroDivisionError.", "quantifier": "all integers and all lists", "why_tests_cant": "The input domain is infinite; all lists.", "anchors": ["ecc/numbertheory.py:gcd2", "ecc/numbertheory.py:gcd", "ecc/numbertheory.py:lcm2", "ecc/numbertheory.py:lcm"]}
{"id": "C56", "title": "jacobi is the Jacobi symbol", "statement": "For every integer a and odd n >= 3, jacobi(a, n) equals the Jacobi symbol (a/n); for n < 3 or even n it raises AssertionError; the recursion terminates and its internal calls never violate the precondition.", "quantifier": "all integers a, all n", "why_tests_cant": "The input domain is infinite; tested on a small table only.", "anchors": ["ecc/numbertheory.py:jacobi"]}
{"id": "C57", "title": "square_root_mod_prime correctness", "statement": "For every prime p and 0 <= a < p: if a is a square mod p a root r with 0 <= r < p and r*r = a mod p is returned, otherwise SquareRootError is raised. No other exception is raised by the code (a suitable b always exists, the polynomial result is always constant) for every residue class of p; that the interpreter may refuse to make the list range(2, p) for large p that are 1 modulo 8 is C174.", "quantifier": "all primes p, all 0 <= a < p", "why_tests_cant": "Every prime; the source says tested up to 1229.", "anchors": ["ecc/numbertheory.py:square_root_mod_prime", "ecc/numbertheory.py:polynomial_exp_mod"]}
{"id": "C58", "title": "modular_sqrt (Tonelli-Shanks) correctness", "statement": "For every odd prime p and integer a, modular_sqrt(a, p) terminates and returns a root of a mod p in (0, p) when a is a non-zero square, and 0 otherwise; for p = 2 it returns 0 for every a, so odd a (whose root is 1) gets a wrong answer.", "quantifier": "all primes p, all integers a", "why_tests_cant": "Depends on the 2-adic structure of p-1 for every p.", "anchors": ["ecc/numbertheory.py:modular_sqrt", "ecc/numbertheory.py:legendre_symbol"]}
{"id": "C59", "title": "legendre_symbol correctness", "statement": "For every odd prime p and integer a, legendre_symbol(a, p) is 0 when p divides a, 1 for non-zero squares and -1 for non-squares; for p = 2 it returns -1 for every a, squares included.", "quantifier": "all primes p, all integers a", "why_tests_cant": "Every prime.", "anchors": ["ecc/numbertheory.py:legendre_symbol"]}
{"id": "C60", "title": "factorization", "statement": "For n >= 1 factorization(n) returns pairs with strictly increasing bases, exponents >= 1 and product n; every base except possibly the last is prime, and the last is prime or has exponent 1, passes is_prime and has all prime factors above 1229; for n < 1231^2 every base is prime; for n < 2 the list is empty; the search terminates.", "quantifier": "all integers n", "why_tests_cant": "The input domain is infinite; correctness for every n.", "anchors": ["ecc/numbertheory.py:factorization"]}
{"id": "C61", "title": "phi is Euler totient whenever factorization is complete", "statement": "If every base returned by factorization(n) is prime (in particular for every n < 1231^2 = 1515361) phi(n) equals Euler totient for n >= 1; for n <= 0 it returns 1.", "quantifier": "all integers n", "why_tests_cant": "The input domain is infinite; every n.", "anchors": ["ecc/numbertheory.py:phi"]}
{"id": "C62", "title": "carmichael is the exponent of the unit group whenever factorization is complete", "statement": "If every base returned by factorization(n) is prime (in particular for every n < 1231^2), carmichael(n) is the least positive x with m^x = 1 mod n for all m coprime to n.", "quantifier": "all n >= 1", "why_tests_cant": "The input domain is infinite; every n and every m.", "anchors": ["ecc/numbertheory.py:carmichael", "ecc/numbertheory.py:carmichael_of_factorized", "ecc/numbertheory.py:carmichael_of_ppower"]}
{"id": "C63", "title": "order_mod", "statement": "For m >= 2 and positive x coprime to m, order_mod(x, m) terminates and is the multiplicative order of x, except that for x = 1 mod m with x != 1 it returns 2 instead of 1; x not coprime to m, or x <= 0, raises AssertionError; m <= 1 returns 0.", "quantifier": "all integers x, m", "why_tests_cant": "The input domain is infinite; termination for every input.", "anchors": ["ecc/numbertheory.py:order_mod"]}
{"id": "C64", "title": "largest_factor_relatively_prime", "statement": "For a >= 1 and every integer b the function terminates and returns the largest divisor of a coprime to b; for a = 0 and b >= 2 it never terminates; kinda_order_mod(x, m) is the order of x modulo that factor of m when 0 < x is below it, and 0 when the factor is 1.", "quantifier": "all a >= 1, all integers b; a = 0", "why_tests_cant": "Non-termination and maximality over all divisors are not testable.", "anchors": ["ecc/numbertheory.py:largest_factor_relatively_prime", "ecc/numbertheory.py:kinda_order_mod"]}
{"id": "C65", "title": "is_prime never rejects a prime", "statement": "is_prime(n) is True for every prime n, exact for n <= 1229, and False for every n with a factor 2, 3, 5, 7 or 11 above 1229, whatever the floating point logarithm returns; above 1229 it is True exactly when n has no such factor and is a strong probable prime to each of the first t primes, t being the number of rounds for the computed bit length.", "quantifier": "all integers n, all results of the float logarithm", "why_tests_cant": "Every prime.", "anchors": ["ecc/numbertheory.py:is_prime"]}
{"id": "C66", "title": "is_prime accepts some composites because its bases are fixed", "statement": "There is an explicit composite n (a 793-bit product of three primes, given in the theorem C66_three_primes) for which is_prime returns True for every value the float logarithm could produce; so is_prime is not a primality test.", "quantifier": "existence, explicit witness", "why_tests_cant": "Random tests essentially never hit a strong pseudoprime to all fixed bases.", "anchors": ["ecc/numbertheory.py:is_prime", "ecc/numbertheory.py:next_prime"]}
{"id": "C67", "title": "next_prime skips no prime", "statement": "next_prime(s) terminates, returns n > s with is_prime(n) True, and there is no prime strictly between s and n; for s < 2 it returns 2; for s >= 1 the answer is at most 2*s.", "quantifier": "all integers s", "why_tests_cant": "The input domain is infinite; termination rests on infinitude of primes.", "anchors": ["ecc/numbertheory.py:next_prime"]}
{"id": "C68", "title": "Polynomial arithmetic modulo a monic polynomial", "statement": "polynomial_multiply_mod and (for exponents 2 <= e < p) polynomial_exp_mod return reduced coefficient lists congruent to the product and the power in Z/p[x] modulo the monic polynomial, with degree below it; polynomial_reduce_mod returns a congruent list cut to the degree of the modulus; exponent 0 returns [1], exponent 1 returns the base unreduced, exponent >= p raises AssertionError; a non-monic or constant modulus raises AssertionError, an empty one IndexError.", "quantifier": "all coefficient lists, monic moduli, p, exponents", "why_tests_cant": "All polynomials and exponents.", "anchors": ["ecc/numbertheory.py:polynomial_reduce_mod", "ecc/numbertheory.py:polynomial_multiply_mod", "ecc/numbertheory.py:polynomial_exp_mod"]}
{"id": "C69", "title": "rabin_miller separates primes from composites", "statement": "rabin_miller(n, a) returns 1 for every prime n and 1 <= a < n, and 0 for every base in range that shares a factor with n, so for every composite n (odd or even) there is a base in range for which it returns 0; for odd n it returns 1 exactly when n is a strong probable prime to the base a, for even n exactly when a**(n-1) is 1 or -1 modulo n (so the base n-1 always passes); out of range bases raise AssertionError; it terminates with 0 or 1 on all others.", "quantifier": "all n, all bases", "why_tests_cant": "A statement about all bases of every n.", "anchors": ["fmath/prime.py:rabin_miller"]}
{"id": "C70", "title": "fermat_little_test accepts primes coprime to the base and only then", "statement": "For prime p and every integer a, fermat_little_test(p, a) is 1 iff p does not divide a; every squarefree n with q-1 | n-1 for all primes q | n (Carmichael numbers) passes for every coprime base, e.g. 561.", "quantifier": "all primes p, all integers a", "why_tests_cant": "All primes.", "anchors": ["fmath/prime.py:fermat_little_test"]}
{"id": "C71", "title": "GFp elements form the ring Z/p", "statement": "For p >= 1, +, -, *, negation and ^ with non-negative exponents on elements (and mixed with integers on either side for + - *) agree with Z/p and always store a value in [0, p).", "quantifier": "all p >= 1, all elements and integers", "why_tests_cant": "The input domain is infinite; all moduli and values.", "anchors": ["fmath/galoisfield.py:GFp", "fmath/galoisfield.py:Element_of_GFp"]}
{"id": "C72", "title": "GFp division", "statement": "For p >= 2 and a divisor value v (an element's stored value or an integer): if v >= 0 and gcd(v, p) = 1, x/v returns the unique q in [0, p) with q*v = x mod p; if gcd(v, p) != 1, or v is a negative integer (even one invertible mod p), it raises Exception. Dividing an integer by an element behaves alike.", "quantifier": "all p >= 2, all values", "why_tests_cant": "All signs and values.", "anchors": ["fmath/galoisfield.py:Element_of_GFp.__div__", "fmath/galoisfield.py:inverse_mod", "fmath/galoisfield.py:egcd"]}
{"id": "C73", "title": "GFp comparison is equality of representatives, not an order", "statement": "An element compares equal to another value iff the stored representative equals int(other), so an unreduced integer congruent to it compares unequal, elements of different fields with the same representative compare equal, and for unequal elements both x > y and y > x hold.", "quantifier": "all p, all values", "why_tests_cant": "All pairs.", "anchors": ["fmath/galoisfield.py:Element_of_GFp.__cmp__"]}
{"id": "C74", "title": "Weierstrass addition is the elliptic curve group law", "statement": "On a SmallWeierstrassCurveFp with odd prime p and 4a^3+27b^2 not 0 mod p, every point accepted by on_curve stands for an element of the elliptic curve group; adding two such points of one curve object with reduced x coordinates never raises and gives the group-law sum on the same curve object; on points with coordinates in [0, p) addition is associative and commutative with exactly equal results, and the point at infinity is its identity.", "quantifier": "all odd primes p, all non-singular curves, all pairs and triples of points", "why_tests_cant": "Quantifies over all curves and points.", "anchors": ["ecc/ecc.py:SmallWeierstrassCurveFp.add_points", "ecc/ecc.py:SmallWeierstrassCurveFp.on_curve"]}
{"id": "C75", "title": "Weierstrass doubling, negation and subtraction", "statement": "double() of a finite point with y not 0 mod p returns the group double with both coordinates in [0, p) and never raises; negation of a finite point returns the group inverse, keeping x and replacing y by the integer -y; subtracting a finite point from a point of the same curve object, both with reduced x coordinates, never raises and returns the difference of the group.", "quantifier": "all odd primes p, all non-singular curves, all points", "why_tests_cant": "All points.", "anchors": ["ecc/ecc.py:SmallWeierstrassCurveFp.double_point", "ecc/ecc.py:SmallWeierstrassCurveFp.negate"]}
{"id": "C76", "title": "Scalar multiplication is the k-fold sum", "statement": "If the curve attribute n is odd and is the order of P (in particular if n is an odd prime with n*P = 0), then for every integer k of either sign, k*P computed by scalar_multiple never raises and equals the k-fold group sum of P, with coordinates in [0, p) when those of P are; the point at infinity multiplied by anything is the point at infinity.", "quantifier": "all non-singular curves, points of odd order n, all integers k", "why_tests_cant": "All scalars of any size.", "anchors": ["ecc/ecc.py:SmallWeierstrassCurveFp.scalar_multiple", "ecc/ellipticcurve.py:Point.__mul__"]}
{"id": "C77", "title": "Scalar multiplication laws and Diffie-Hellman agreement", "statement": "(j+k)*P and j*P + k*P are equal points, and for an odd prime n with n*P = 0, a*(b*P), b*(a*P) and (a*b)*P never raise and are equal points coordinate for coordinate, for all integers a, b.", "quantifier": "all curves, points of order n with coordinates in range, all integer scalars", "why_tests_cant": "All pairs of scalars.", "anchors": ["ecc/ecc.py:SmallWeierstrassCurveFp.scalar_multiple"]}
{"id": "C78", "title": "Validated construction accepts exactly the curve points", "statement": "curve.point(x, y) with integer coordinates returns iff y^2 = x^3 + a x + b mod p and raises AssertionError otherwise, for every p other than 0; point(None, None) returns the point at infinity; for any curve parameters at all, every result of +, -, unary -, double() and * on accepted points of a curve object is an accepted point of that object.", "quantifier": "all integers x, y, all parameters", "why_tests_cant": "The input domain is infinite; every invalid point must be rejected.", "anchors": ["ecc/ellipticcurve.py:Point.__init__", "ecc/ecc.py:SmallWeierstrassCurveFp.on_curve"]}
{"id": "C79", "title": "Exceptional cases of Weierstrass arithmetic", "statement": "Negating or doubling the point at infinity and subtracting it raise TypeError; doubling a point with y = 0 mod p raises AssertionError; adding points whose unreduced x coordinates are congruent but not equal raises AssertionError; adding points of two different curve objects raises AssertionError even if the parameters agree.", "quantifier": "all curves", "why_tests_cant": "Error paths for every curve.", "anchors": ["ecc/ecc.py:SmallWeierstrassCurveFp.negate", "ecc/ecc.py:SmallWeierstrassCurveFp.double_point", "ecc/ellipticcurve.py:Point.__sub__"]}
{"id": "C80", "title": "Point equality is equality of raw coordinates", "statement": "P == Q iff the curve objects are identical and the stored coordinates are equal as integers; therefore -P differs from (n-1)*P whenever y is in (0, p), although they are the same group element.", "quantifier": "all points", "why_tests_cant": "All points.", "anchors": ["ecc/ellipticcurve.py:Point.__cmp__", "ecc/ecc.py:SmallWeierstrassCurveFp.negate"]}
{"id": "C81", "title": "Edwards and Montgomery curve objects can not be created", "statement": "For every p >= 3 and all parameters a and d, constructing an EdwardsCurveFp or TwistedEdwardsCurveFp subclass raises AssertionError, and for every p >= 2 and every a constructing a MontgomeryCurveFp subclass raises AssertionError (AttributeError if a is not defined), because the identity (0, -1) is not on the curve by the implemented equation; hence no shipped Edwards or Montgomery curve can be instantiated.", "quantifier": "all parameters", "why_tests_cant": "All parameter sets.", "anchors": ["ecc/ecc.py:MontgomeryCurveFp.identity", "ecc/ecc.py:TwistedEdwardsCurveFp.identity", "ecc/ecc.py:TwistedEdwardsCurveFp.on_curve", "ecc/ellipticcurve.py:EllipticCurveFp.__init__"]}
{"id": "C82", "title": "montgomery_ladder computes the x-coordinate of the scalar multiple", "statement": "For every odd prime p, every a with a^2 not 4 mod p and every point (x1, y1) accepted by on_curve, montgomery_ladder returns, in [0, p), the affine x coordinate of (scalar mod 2^255)*P on y^2 = x^3 + a x^2 + x (0 for the point at infinity), for every integer scalar; so scalars in [0, 2^255) are used in full and higher bits are silently dropped.", "quantifier": "all integer scalars, all points, all odd primes, all parameters", "why_tests_cant": "2^255 scalars.", "anchors": ["ecc/ecc.py:MontgomeryCurveFp.montgomery_ladder", "ecc/ecc.py:cswap"]}
{"id": "C83", "title": "Point decompression", "statement": "For every prime p, y_from_x(x) returns y in [0, p) such that point(x, y) is accepted when the right-hand side is a square mod p, and raises SquareRootError otherwise, as long as the interpreter can make the list range(2, p) that it asks for if p is 1 modulo 8 (C174 says where it can not).", "quantifier": "all primes, curves, x", "why_tests_cant": "All x.", "anchors": ["ecc/ecc.py:SmallWeierstrassCurveFp.y_from_x"]}
{"id": "C84", "title": "Private keys are not restricted to [1, n-1]", "statement": "new_private_key returns exactly the integers in [0, 256^coord_size) as the random source varies; 0 and values >= n are possible; such keys give the same public key as their residue mod n.", "quantifier": "all random outcomes", "why_tests_cant": "Depends on random source.", "anchors": ["ecc/ecc.py:SmallWeierstrassCurveFp.new_private_key"]}
{"id": "C85", "title": "coord_size is the octet length of p", "statement": "For p >= 1, coord_size is the least s with p < 256^s; every coordinate in [0, p) fits in coord_size octets.", "quantifier": "all p", "why_tests_cant": "The input domain is infinite; every p.", "anchors": ["ecc/ellipticcurve.py:EllipticCurveFp.__init__"]}
{"id": "C86", "title": "Point encoders always raise", "statement": "encode('raw'), toOctets and to_octetstring raise NameError for every point because int_to_string is not imported by ellipticcurve.py; encode with any other mode raises Exception; from_octetstring raises TypeError (a string is raised). With the name bound, encode('raw') of a point with coordinates in [1, p) would be two strings of coord_size octets. toOctets would be the shortest string for x, and to_octetstring the shortest strings for x and y one after the other, so that different coordinates share a string.", "quantifier": "all points", "why_tests_cant": "Every point.", "anchors": ["ecc/ellipticcurve.py:Point.encode", "ecc/ellipticcurve.py:Point.toOctets"]}
{"id": "C87", "title": "Orbit map is the cycle partition", "statement": "For every permutation of range(n), map_orbits_of_permutation returns a dictionary keyed by the least element of each cycle; the cycles partition range(n), each list follows the permutation and closes.", "quantifier": "all permutations of all sizes", "why_tests_cant": "All permutations.", "anchors": ["analysis/sbox_analysis.py:map_orbits_of_permutation", "analysis/permutation.py"]}
{"id": "C88", "title": "Walsh transform inversion and Parseval", "statement": "For every binary list of length 2^n the Walsh transform satisfies Parseval (sum of squares = 4^n) and determines the list; it equals the sum of (-1)^(t(x) + w.x).", "quantifier": "all binary lists of power-of-two length", "why_tests_cant": "2^(2^n) lists.", "anchors": ["analysis/walshtransform.py:walshTransform", "analysis/sbox_nonlinearity.py:walshTransform"]}
{"id": "C89", "title": "Non-linearity is the distance to the nearest affine function", "statement": "nonLinearity(t) for a binary list t of length 2^n with n >= 1 equals the minimum Hamming distance of t from all affine Boolean functions of n bits, and is at most 2^(n-1) - 2^(n/2-1). For a list of one entry it returns -0.5, which is not a distance.", "quantifier": "all binary lists of power-of-two length >= 2", "why_tests_cant": "2^(2^n) lists against all affine functions.", "anchors": ["analysis/walshtransform.py:nonLinearity", "analysis/sbox_nonlinearity.py:nonLinearity"]}
{"id": "C90", "title": "log2n", "statement": "log2n(l) returns n iff l = 2^n, otherwise AssertionError for every positive integer that is not a power of two and for l <= 0.", "quantifier": "all integers", "why_tests_cant": "The input domain is infinite; all integers.", "anchors": ["analysis/walshtransform.py:log2n"]}
{"id": "C91", "title": "binaryInnerProduct is the parity of the common bits", "statement": "binaryInnerProduct(a, b) for non-negative a, b is the parity of the number of common one bits; it is symmetric and bilinear over xor.", "quantifier": "all non-negative integers", "why_tests_cant": "The input domain is infinite; all integers.", "anchors": ["analysis/walshtransform.py:binaryInnerProduct"]}
{"id": "C92", "title": "pi(d) is the truncation of pi to d digits", "statement": "For every 1 <= d <= 50000, pi(d) is floor(pi * 10^d) / 10^d, so 0 <= pi - pi(d) < 10^-d; without argument and for 0 all 50000 digits are used; larger d raises AssertionError; negative d raises ValueError (when no digit is left in the slice) or TypeError.", "quantifier": "all integers d and no argument", "why_tests_cant": "The real number pi can not be compared by a test.", "anchors": ["fmath/pi.py:pi", "fmath/pi.py:pi_string"]}
{"id": "C93", "title": "primes_to_5k is the list of primes below 5000", "statement": "The table contains exactly the primes below 5000 in increasing order; smallprimes contains exactly the primes up to 1229.", "quantifier": "all naturals", "why_tests_cant": "A statement about all naturals (no others are in the list).", "anchors": ["fmath/primes_to_5k.py:primes_to_5k", "ecc/numbertheory.py:smallprimes"]}
{"id": "C94", "title": "S-box non-linearity of AES and SMS4", "statement": "sboxNonlinearity(sbox) for a table of 2^n entries, n >= 1, returns the minimum and the maximum, over all non-empty sets of output bits, of the distance of their exclusive or to the affine functions; a table of one entry raises ValueError and any other length AssertionError. The four tables of the file give (112, 112) for AES and SMS4, (102, 110) for the one called Streebog and (100, 116) for pi.", "quantifier": "all affine functions and masks", "why_tests_cant": "Distance to all affine functions for all masks.", "anchors": ["analysis/sbox_nonlinearity.py:sboxNonlinearity"]}
{"id": "C95", "title": "Shipped Weierstrass curves have valid parameters and prime order", "statement": "For each of the 36 shipped Weierstrass curve classes other than GOSTmsg05975sw: p and n are odd primes, the discriminant is non-zero modulo p, generator() is accepted and reduced, the group of points has exactly n elements (the recorded cofactor 1 is right) and the generator has order n. Hence for every valid point P with reduced x, not only the generator, and every integer k, k*P never raises, is the k-fold group sum and a valid point, and is the point at infinity only if P is or n divides k; j*P and k*P agree exactly if j and k are congruent modulo n; Diffie-Hellman agreement holds from every valid base point.", "quantifier": "all 36 classes, all valid points, all integer scalars", "why_tests_cant": "Primality, the number of points and statements about all scalars and points are mathematical facts about 160 to 521 bit numbers.", "anchors": ["ecc/curves.py", "ecc/ecc.py:SmallWeierstrassCurveFp.scalar_multiple", "ecc/ellipticcurve.py:EllipticCurve.generator"]}
{"id": "C96", "title": "poly1305_mac domain and modulus are proper", "statement": "2^130-5 is prime, so the evaluation hash works over a field. The numbers that poly1305_mac makes of blocks of at most 16 octets, each followed by the octet 1, are elements of this field other than 0, and different blocks, also of different lengths, give different elements; different clamped values of r are different elements too.", "quantifier": "all blocks of at most 16 octets, all values of r", "why_tests_cant": "A mathematical fact.", "anchors": ["cipher/chacha_poly.py:poly1305_mac"]}
{"id": "C97", "title": "PRF of prf_dot11 with the sibling hmac module", "statement": "If import hmac in hash/prf_dot11.py resolves to the sibling hash/hmac.py (Python 2 implicit relative import), every call of PRF with a non-negative multiple of 8 raises AttributeError.", "quantifier": "all keys, prefixes, data and lengths", "why_tests_cant": "a test fixes one import environment and a few lengths", "anchors": ["hash/prf_dot11.py:PRF", "hash/hmac.py:HMAC"]}
{"id": "C98", "title": "TKIP seed octet order against 802.11i", "statement": "With pn[i] as TSCi, the seed of phase2KeyMixing agrees with the WEP seed of IEEE 802.11i in octets 3 to 15 for every key, address and counter, and agrees completely if and only if TSC0 = TSC1: octets 0 and 1 use TSC0 and octet 2 uses TSC1, the reverse of the standard.", "quantifier": "all keys, addresses, packet numbers, S-boxes", "why_tests_cant": "the space of keys and counters is unbounded and test vectors with equal octets hide the difference", "anchors": ["hash/tkip_key_mixing.py:phase2KeyMixing"]}
{"id": "C99", "title": "Montgomery and Edwards operations that never work", "statement": "montgomery_ladder2 raises NameError for every scalar and point (AttributeError when a is missing), negating a Montgomery point raises NameError, and Edwards scalar_multiple by any scalar other than 0 raises AttributeError.", "quantifier": "all parameters, points and scalars", "why_tests_cant": "No input at all makes the operation return.", "anchors": ["ecc/ecc.py:MontgomeryCurveFp.montgomery_ladder2", "ecc/ecc.py:MontgomeryCurveFp.negate", "ecc/ecc.py:TwistedEdwardsCurveFp.scalar_multiple"]}
{"id": "C100", "title": "Scalar multiplication of points of any order", "statement": "For a finite valid point with reduced x of any order d, and k with residue e modulo the curve attribute n, e not 0: k*P returns the e-fold sum if d divides no 2*(floor(3e/2^i) - floor(e/2^i)) with i >= 2 and 2^i <= 3e, and otherwise raises TypeError or AssertionError (TypeError if d is odd). A point with y = 0 raises AssertionError for every residue other than 0 and 1. If n = 4d with d odd, exactly the residues n/2 and n-1 raise.", "quantifier": "all curves over a prime field, all points, all integer scalars", "why_tests_cant": "The failing scalars are a few needles among n.", "anchors": ["ecc/ecc.py:SmallWeierstrassCurveFp.scalar_multiple", "ecc/ecc.py:SmallWeierstrassCurveFp.double_point"]}
{"id": "C101", "title": "GOSTmsg05975sw records the group order, not the generator order", "statement": "On GOSTmsg05975sw p is prime, generator() is accepted, and its order is the prime n/4, not n. k*G raises TypeError exactly when k is congruent to n/2 or to -1 modulo n; in particular -1*G raises. For every other integer k, k*G is the k-fold sum.", "quantifier": "all integer scalars", "why_tests_cant": "Only two residues out of 2^512 fail.", "anchors": ["ecc/curves.py:GOSTmsg05975sw", "ecc/ecc.py:SmallWeierstrassCurveFp.scalar_multiple"]}
{"id": "C102", "title": "At most a quarter of the bases fool rabin_miller", "statement": "For every odd composite n, at most (n-1)/4 of the bases a in 1..n-1 make rabin_miller(n, a) return 1.", "quantifier": "all odd composite n, all bases counted", "why_tests_cant": "A counting bound over all bases of every composite number.", "anchors": ["fmath/prime.py:rabin_miller"]}
{"id": "C103", "title": "Which numbers fool fermat_little_test", "statement": "A number n >= 2 passes fermat_little_test(n, a) for all coprime bases exactly when it is squarefree and q-1 divides n-1 for each of its prime factors q (Korselt); if any coprime base fails, at most half of the bases 1..n-1 pass.", "quantifier": "all n >= 2, all bases", "why_tests_cant": "An equivalence and a counting bound over all bases of every n.", "anchors": ["fmath/prime.py:fermat_little_test"]}
{"id": "C104", "title": "Key agreement with montgomery_ladder", "statement": "For every odd prime p, every a with a^2 != 4 mod p, every integer x - on the curve, on its twist, 0 or unreduced - and all scalars k and l, ladder(l, ladder(k, x)) = ladder(k, ladder(l, x)), and the value is reduced.", "quantifier": "all odd primes p, all a, x, k, l", "why_tests_cant": "An algebraic identity for all scalars and all curves, including x-coordinates without a point over GF(p).", "anchors": ["ecc/ecc.py:MontgomeryCurveFp.montgomery_ladder"]}
{"id": "C105", "title": "montgomery_ladder never reduces its variables", "statement": "For every x other than 0, 1, -1 and every a other than 2, -2, whatever the scalar, after k+2 iterations of the ladder loop one of the four variables has absolute value at least |x|^(2^k); at the end one of them needs more than 2^253 binary digits, so no machine can complete a call (C82 and C104 describe the value of the expression, not a run on a machine with finite memory).", "quantifier": "all integers x with |x| >= 2, all a other than 2 and -2, all scalars, all iteration counts", "why_tests_cant": "A test can only observe that a call does not come back; the growth bound for every input and every scalar needs an invariant.", "anchors": ["ecc/ecc.py:MontgomeryCurveFp.montgomery_ladder"]}
{"id": "C106", "title": "Affine addition on Montgomery curves", "statement": "For every odd prime p and a with a^2 != 4 mod p, add_points of two curve points with different x mod p gives the reduced coordinates of the group sum; doubling (double or P + P) does so whenever y != 0 mod p; the identity is neutral on both sides. Sums that are the point at infinity are not returned as such: opposite points raise AssertionError (or, when the y are opposite integers, return the first point), doubling a point of order two and adding points with congruent but different x raise AssertionError.", "quantifier": "all odd primes p, all nonsingular a, all pairs of points", "why_tests_cant": "Group law identities over all curves, including all exceptional cases.", "anchors": ["ecc/ecc.py:MontgomeryCurveFp.add_points", "ecc/ecc.py:MontgomeryCurveFp.double_point"]}
{"id": "C107", "title": "Scalar multiplication on Montgomery curves", "statement": "For a point of odd order n, scalar_multiple(P, k) is the k-fold sum for 0 < k < n, reduced for k >= 2; k = n raises AssertionError for reduced points; k = 0 gives the identity; for negative k the recursion has no end, so that it stops only at the interpreter's recursion limit (C174).", "quantifier": "all curves as in C106, all points of odd order, all scalars in the stated ranges", "why_tests_cant": "Recursion over arbitrary scalars; nontermination cannot be observed by a test.", "anchors": ["ecc/ecc.py:MontgomeryCurveFp.scalar_multiple"]}
{"id": "C108", "title": "What an Edwards point object accepts", "statement": "For every prime p, Point(curve, x, y) of a TwistedEdwardsCurveFp is accepted exactly if a*x^2 + y = 1 + d*x^2*y^2 modulo p, with y where the Edwards curve has y^2, and otherwise raises AssertionError. So, of the points of the Edwards curve, only those with y = 0 or y = 1 can be built; the generator of every shipped Edwards class is rejected, although E382, Curve3617, E521 and GOSTmsg05975te satisfy the equation of their curve; Ed25519, with d = 1, has the equation of four lines and the generator of Curve25519. (As C81 says, the shipped identity method keeps objects of these classes from being created; this is about the methods on an object whose class overrides identity.)", "quantifier": "for all primes p, all a, d, and all integers x, y; all shipped Edwards classes", "why_tests_cant": "Tests construct a few points; which pairs are accepted is a statement about all pairs modulo all primes, and that only three kinds of curve point remain follows from algebra.", "anchors": ["ecc/ecc.py:136-146", "ecc/ecc.py:190-193", "ecc/ellipticcurve.py:32-34", "ecc/curves.py:317-345", "ecc/curves.py:665-689", "ecc/curves.py:704-713", "ecc/curves.py:727-737"]}
{"id": "C109", "title": "Edwards addition computes the complete group law, then rejects the result", "statement": "For every odd prime p, every a that is a nonzero square and every d that is not a square modulo p, and any two points of the Edwards curve, add_points computes reduced coordinates of their sum in the group of the curve, with no missing inverse, and then returns them if the y of the sum is 0 or 1 and raises AssertionError otherwise. double_point(P) is add_points(P, P); the opposite point (-x, y) is the group inverse and is accepted exactly if (x, y) is. (As C81 says, the shipped identity method keeps objects of these classes from being created; this is about the methods on an object whose class overrides identity.)", "quantifier": "for all primes p, all complete curves and all pairs of points", "why_tests_cant": "Associativity and completeness (no denominator is ever zero) are facts about all points of all complete curves; a test can only try some.", "anchors": ["ecc/ecc.py:148-165"]}
{"id": "C110", "title": "Parameters of the shipped Edwards and Montgomery curves", "statement": "For E382, Curve3617 and E521 p and n are prime and (xG, yG) is a point of order exactly n of a complete Edwards curve with the a and d of the class, which has h*n points. For GOSTmsg05975te this holds with the attribute q in place of n, and n (assigned twice) is not a multiple of the order. For Curve25519 and M383 p and n are prime, a^2 is not 4, the generator is accepted and is a point of order exactly n of a curve with h*n points. M511 has prime p and n but no attribute a: every point construction raises AttributeError. (As C81 says, the shipped identity method keeps objects of these classes from being created; this is about the methods on an object whose class overrides identity.)", "quantifier": "for all shipped Edwards and Montgomery classes; orders are statements about all scalars, group orders about all points", "why_tests_cant": "Primality of 500-bit numbers, and the order of a point or the number of points of a curve over such a field, can not be established by running a sample of inputs.", "anchors": ["ecc/curves.py:317-345", "ecc/curves.py:652-737"]}
{"id": "C111", "title": "The ladder computes X25519", "statement": "For every odd prime p, all a and a24 with 4*a24 = a-2 and every scalar k >= 0 and integer x, montgomery_ladder returns the value that the ladder of RFC 7748 section 5 (255 bits, deferred conditional swaps, a24) gives for k and x, reduced to [0,p). For all octet strings k and u, X25519(k, u) of RFC 7748 is the little-endian encoding of montgomery_ladder of Curve25519 on the decoded scalar and the decoded coordinate, whether or not u is the coordinate of a point. (As C81 says, the shipped identity method keeps Montgomery objects from being created; this is about the method on an object whose class overrides identity.)", "quantifier": "for all odd primes p, curve parameters, scalars and coordinates; for all octet strings k and u", "why_tests_cant": "The two ladders use different formulas and different intermediate values; agreement on test vectors says nothing about coordinates on the twist, of low order or beyond p.", "anchors": ["ecc/ecc.py:254-268", "ecc/ecc.py:300-305"]}
{"id": "C112", "title": "Low-order inputs of the ladder", "statement": "For every odd prime p and a with a^2 not 4 mod p, and every integer scalar, montgomery_ladder returns 0 on a coordinate congruent to 0; it returns the parity of the scalar on a coordinate congruent to 1, and p-1 or 0 according to the parity on a coordinate congruent to -1. No such coordinate is rejected. On Curve25519, for the scalar of any 32 octets clamped as RFC 7748 demands and any point the curve accepts, the result is 0 if and only if 8 times the point is the identity. (As C81 says, this is about the method on an object whose class overrides identity.)", "quantifier": "for all odd primes p, curves, scalars; for all 32-octet keys and accepted points", "why_tests_cant": "That a zero result occurs only for low-order points, for all 2^251 clamped scalars and all points, can not be sampled.", "anchors": ["ecc/ecc.py:254-268", "ecc/curves.py:652-737"]}
{"id": "C113", "title": "Off-curve points are refused by the arithmetic", "statement": "Let Q be a point of a Weierstrass curve made with validate=False whose coordinates do not satisfy the curve equation. Negating Q raises AssertionError. Multiplying Q by a scalar raises AssertionError, unless the scalar is a multiple of n, when the identity is returned without Q being examined. Over a prime field doubling Q raises AssertionError. Adding Q to a point P of the curve, in either order, raises AssertionError or gives a value that does not depend on Q: -P, or 2P when both have the same x and P is the left operand; both of these do occur.", "quantifier": "for all curves, all off-curve coordinates, all scalars and all points P of the curve; doubling and addition for all prime p", "why_tests_cant": "Invalid-curve attacks choose the off-curve point; that no choice of coordinates and no scalar gets a multiple of such a point out of the library is a statement about all of them.", "anchors": ["ecc/ecc.py:42-105", "ecc/ellipticcurve.py:28-30", "ecc/ellipticcurve.py:58-74"]}
{"id": "C114", "title": "Exactly which inputs give an all-zero X25519 value", "statement": "On Curve25519, for the scalar of any 32 octets clamped as RFC 7748 demands and every integer coordinate x, on the curve or on its twist, montgomery_ladder returns 0 if and only if x mod p is one of the five values 0, 1, p-1 and the two coordinates of order 8. Equivalently, X25519(k, u) of RFC 7748 is 32 zero octets, for 32-octet u, exactly if the 255 bits of u hold one of these five numbers or p or p+1; which ones does not depend on the key. (As C81 says, this is about the method on an object whose class overrides identity.)", "quantifier": "for all 32-octet keys, all integers x and all 32-octet strings u", "why_tests_cant": "Both directions quantify over 2^251 scalars and 2^255 coordinates; that no other coordinate is of low order needs the orders of the curve and of its twist.", "anchors": ["ecc/ecc.py:254-268", "ecc/curves.py:652-737"]}
{"id": "C115", "title": "Which keys HMAC and PBKDF2 tell apart", "statement": "Two keys of at most B octets (B the hash block size) make the same HMAC object, and so the same MACs in every sequence of calls, exactly if they agree after their trailing zero octets are removed. If two such keys that differ give one MAC, on any two messages, the two inputs of the outer hash are a collision of the hash function. A key longer than B octets is not equivalent to its own digest, as RFC 2104 has it: if a MAC agrees, the inputs of the outer hash are again a collision. Consequently pbkdf2 gives the same key for a password and for that password followed by zero octets, and so does dot11PassPhraseToPSK.", "quantifier": "for all hash functions with fixed digest length and B >= 63 for the PBKDF2 part, all keys, messages, salts, iteration counts and key sizes", "why_tests_cant": "Equivalence of keys is a statement about all messages and call sequences, and the absence of further equivalent keys about all pairs of keys.", "anchors": ["hash/hmac.py:24-70", "hash/pbkdf2.py:16-42"]}
{"id": "C116", "title": "What the 802.11 PRF authenticates", "statement": "PRF(key, A+'\\0'+B, C, n) equals PRF(key, A, B+'\\0'+C, n) for all octet strings A, B, C and all n, including the errors raised. If the labels contain no zero octet, the octet string hashed in a block determines the label, the data and the block number. PRF_128, PRF_192, PRF_256, PRF_384, PRF_512 and PRF_768 return the first 16, 24, 32, 48, 64 and 96 octets of one stream fixed by key, label and data.", "quantifier": "for all keys, labels, data and bit counts and all 20-octet MACs in place of HMAC-SHA1", "why_tests_cant": "Which label and data pairs collide, and that no others do, is a claim about all pairs of octet strings.", "anchors": ["hash/prf_dot11.py:12-34"]}
{"id": "C117", "title": "When two messages have the same CMAC", "statement": "Let the block cipher be injective under the key. If two messages are the same except for one aligned 16-octet block, or except for an incomplete last block (which may differ in length), their aes_cmac tags differ. Two non-empty messages of whole blocks, of the same or different lengths, have the same tag exactly if they have the same tag after the same octets are appended to both: one collision yields forgeries for all extensions, and appending data never creates a collision.", "quantifier": "for all 128-bit block ciphers injective under the key (also with another cipher than AES passed as CIPH), all keys, all messages and all appended strings", "why_tests_cant": "A claim about all pairs of messages of unbounded length.", "anchors": ["cipher/aes_cmac.py:19-64"]}
{"id": "C118", "title": "No transfer of the discrete logarithm off the shipped curves", "statement": "For each of the 36 shipped Weierstrass curve classes other than GOSTmsg05975sw: n is not p (not anomalous), p does not divide p+1-n (not supersingular), every homomorphism from the group of points to the additive group of GF(p) is trivial, and every homomorphism from the group of points to the multiplicative group of a field with p^k elements, k from 1 to 1000, is trivial.", "quantifier": "for all shipped curves, all homomorphisms, all fields with p^k elements and all k up to 1000", "why_tests_cant": "A claim about all homomorphisms to all such fields; no test can enumerate them.", "anchors": ["ecc/curves.py:75-647"]}
{"id": "C119", "title": "The twisted Brainpool curves are the random ones in other coordinates", "statement": "For the seven pairs BrainPoolPNr1, BrainPoolPNt1: p and n agree, and with the recorded z (for N = 256, where z is missing, with some number) the map (x,y) -> (z^2*x mod p, z^3*y mod p) takes the generator of r1 to the generator of t1, is a bijection between the valid reduced points of the two curves, and commutes with the library: k*map(P) is map(k*P) for every integer k, and map(P)+map(Q) is map(P+Q), without exceptions being raised. Key agreement may therefore be computed on either curve.", "quantifier": "for all seven pairs, all curve objects, all valid points with reduced coordinates and all integers k", "why_tests_cant": "A claim about all points and scalars of groups of 2^160 to 2^512 elements.", "anchors": ["ecc/curves.py:434-647", "ecc/ecc.py:29-127"]}
{"id": "C120", "title": "What leaves the non-linearity of a Boolean function and of a substitution table unchanged", "statement": "For a 0/1 list of 2^n entries, n >= 1: non_linearity is 0 exactly when the list is the table of an affine function. Adding an affine function to the list (in particular complementing it), and replacing x by an invertible affine image of x (exclusive or with a constant, permuting or mixing the input bits), leave the returned value as it was. Changing k entries changes it by at most k. For two tables of mutually inverse permutations of 2^n values, sbox_nonlinearity returns the same minimum, so the decryption direction of a cipher needs no separate analysis of its worst component.", "quantifier": "every n >= 1, every pair of 0/1 lists of 2^n entries, every affine function, every invertible affine change of inputs, every number of changed entries, every pair of inverse tables", "why_tests_cant": "A test evaluates some lists; the statement relates the results for all related lists of every size, in particular for every permutation and its inverse.", "anchors": ["analysis/walshtransform.py:nonLinearity", "analysis/sbox_nonlinearity.py:sboxNonlinearity"]}
{"id": "C121", "title": "When two TKIP packets get the same RC4 key", "statement": "Under one temporal key, two packets get the same 16 octet RC4 key only if both the transmitter address and the 6 octet packet number are the same, whatever the substitution table: stations sharing a key never collide. The results of any sequence of newKey calls on one TKIP_Mixer are pairwise different exactly if the packet numbers are. This is lost once setPnBytes is called directly: after building the object for pn, setPnBytes(pn'), setKey(same key), newKey(pn) returns the very key that newKey returns next for the packet number made of the low octets of pn and the upper octets of pn'.", "quantifier": "every table, every 16 octet key, all pairs of addresses and packet numbers, every finite sequence of newKey calls", "why_tests_cant": "2^96 pairs of addresses and packet numbers per key; sequences of unbounded length.", "anchors": ["hash/tkip_key_mixing.py:TKIP_Mixer.newKey", "hash/tkip_key_mixing.py:TKIP_Mixer.setPnBytes", "hash/tkip_key_mixing.py:phase1KeyMixing", "hash/tkip_key_mixing.py:phase2KeyMixing"]}
{"id": "C122", "title": "What two AEAD encryptions under one nonce give away", "statement": "For ChaCha20_AEAD with a 12 octet nonce: two encryptions under the same key, constant and iv have ciphertexts whose exclusive or is that of the plaintexts. If their associated data or ciphertexts differ, then from what is sent in the clear (associated data, ciphertexts, tags) at most 8 q values remain for the secret Poly1305 number r, q being a bound on the number of 16 octet blocks under the tag, and the right one determines the tag of every other message under that nonce: tag'' = tag + hash_r(message'') - hash_r(message) modulo 2^128.", "quantifier": "every key, constant, iv, associated data and plaintexts; every further message", "why_tests_cant": "A count of all r in a space of 2^106 and a statement about every third message.", "anchors": ["cipher/chacha_poly.py:ChaCha20_AEAD.encrypt", "cipher/chacha_poly.py:poly1305_mac"]}
{"id": "C123", "title": "AEAD ciphertexts can be changed at will", "statement": "For every ciphertext returned by ChaCha20_AEAD.encrypt and every string d of its length, decrypt of the ciphertext with the bits of d flipped raises nothing and returns the plaintext with the bits of d flipped, also under different associated data.", "quantifier": "every key, nonce of 12 octets, associated data, plaintext and d", "why_tests_cant": "All messages and all changes of them.", "anchors": ["cipher/chacha_poly.py:ChaCha20_AEAD.decrypt"]}
{"id": "C124", "title": "The Poly1305 keys that ignore the message", "statement": "For a 32 octet key, poly1305_mac returns the same tag for all messages exactly if the bits of the first 16 octets that clamp keeps are all zero; the tag is then the second half of the key.", "quantifier": "every 32 octet key, all pairs of messages", "why_tests_cant": "An equivalence over all keys and messages.", "anchors": ["cipher/chacha_poly.py:poly1305_mac", "cipher/chacha_poly.py:clamp"]}
{"id": "C125", "title": "Which plaintexts and header lists share a synthetic IV", "statement": "For a cipher that is injective under the key, and a key whose two CMAC subkeys are at least 2^120 (with others C176 says when AssertionError is raised): for every list of headers and every plaintext shorter than 16 octets there is exactly one 16 octet plaintext with the same S2V value. A message encrypted with siv_encrypt and decrypted with one header replaced by another, or with two neighbouring headers exchanged, returns the plaintext if the two headers have the same CMAC; if they have not, and the plaintext is shorter than a block or a whole number of blocks long, decryption raises.", "quantifier": "all keys, header lists (any number of headers before and after), headers, plaintexts", "why_tests_cant": "The claim is about every header list and every pair of headers, and needs that doubling plus identity is invertible on 128-bit strings; equal CMAC values cannot be found by running tests.", "anchors": ["cipher/aes_siv.py: s2v, siv_encrypt, siv_decrypt", "cipher/aes_cmac.py: aes_cmac"]}
{"id": "C126", "title": "What the curve lists contain and what identifies a curve in them", "statement": "For any contents of the module, smallWeierstrassCurves, koblitzCurves, twistedEdwardsCurves, edwardsCurves and montgomeryCurves hold exactly the classes defined in the module whose first base class has the matching name, in the order of their names; no class is in two lists. As shipped, every class that is in none of the lists has the same numbers, oid and strength as a class in allCurves; an oid that is not None belongs to one class (reading oid of M383 raises AttributeError, of no other class); curveId identifies a class except 'secp256r1', which SECP_256r1 and SECP_521r1 share; strength is at most half the length of the order in bits, rounded up, except for GOST2012_tc26_A and GOST2012_tc26_B; and because the loop leaves the name c bound, a later get_all_classes() lists WAPI twice.", "quantifier": "all module namespaces (names bound to classes or other values); all pairs of classes of allCurves as shipped", "why_tests_cant": "Which classes end in which list is a statement about every possible class of the module, including ones added later; the existing test just loops over the list it is given.", "anchors": ["ecc/curves.py: get_all_classes, smallWeierstrassCurves, allCurves (742-768)", "ecc/curves.py: curveId, strength, oid"]}
{"id": "C127", "title": "What the text form of a point or field element says", "statement": "str() of the point at infinity of a Weierstrass curve is IDENTITY; str() of a finite point is a pair of decimal integers from which both stored coordinates can be read back, including negative ones; str() of a point with just one coordinate None raises TypeError. Two points of one curve object that have a text form have the same one exactly if they compare equal. str() of a GFp element is its stored value in decimal, and two elements, of any fields, have the same text exactly if they compare equal. The numbers are written in the usual way: at least one digit, no leading zeros, a minus sign exactly for negative numbers.", "quantifier": "all points of all curve objects, all coordinates; all field elements", "why_tests_cant": "Injectivity of the text form is a statement about all pairs of points and integers of any size.", "anchors": ["ecc/ellipticcurve.py: Point.__str__", "fmath/galoisfield.py: Element_of_GFp.__str__"]}
{"id": "C128", "title": "Which public keys new_private_key can produce and how often", "statement": "On each shipped Weierstrass curve of prime order n, the number of random octet strings s of any given size for which the private key made from s multiplies the generator to a given valid point k*G is 256**size // n, plus one when k mod n is below 256**size mod n. So any two public keys differ by at most one string, the point at infinity always belongs to the most likely ones, and it is never excluded. With the size the method asks for (coord_size) the lesser number is 1 on every curve except 128 on the two 521 bit curves and 3 on GOST2012_test, so every valid point with reduced coordinates, infinity included, is the public key of some random string, and on the other curves some keys are exactly twice as likely as the rest.", "quantifier": "for all shipped prime order curves, all curve objects, all sizes, all valid points with reduced coordinates", "why_tests_cant": "A test can draw some keys; the count of strings per public key ranges over 256**20 to 256**66 strings and as many points.", "anchors": ["ecc/ecc.py:125-126", "ecc/ellipticcurve.py:41-48", "ecc/curves.py:75-560"]}
{"id": "C129", "title": "What the orbit analysis says about tables that are not permutations", "statement": "For every table of n values below n, permutation or not, map_orbits_of_permutation returns without an error; each key i has the list of the values met from i on until the return to i, cut off after n - i of them, and every index is in some list. The result equals the result for a permutation of the same size exactly when the table agrees with that permutation at every index, except possibly at one: the last index of a cycle that consists of all numbers from its least element to n - 1. So a table that is not a permutation can look like one, but only in this way.", "quantifier": "all tables with values in range and all permutations of all sizes", "why_tests_cant": "All tables of all sizes; the analysis has no check of its own, so a test only sees the tables it tries.", "anchors": ["analysis/sbox_analysis.py:81-100", "analysis/permutation.py:10-29"]}
{"id": "C130", "title": "When the key streams of two SIV encryptions overlap", "statement": "Take two encryptions with siv_encrypt under one key. Where the counter of block i of the first (the IV with bits 31 and 63 cleared, plus i) equals that of block j of the second, the xor of the ciphertext octets of those blocks is the xor of their plaintext octets. For a block cipher that is injective on 16-octet blocks, whole blocks are related like this only where the counters are equal. For messages of at most 2^31 blocks each, a common counter exists exactly when both are non-empty, the IVs agree in all bits from bit 32 on except bit 63, and the lowest 31 bits of the IVs differ by less than the number of blocks of the message with the smaller one.", "quantifier": "all lawful block ciphers, keys of at least two octets, header lists and plaintexts; all pairs of IVs", "why_tests_cant": "A claim about all pairs of messages and IVs; accidental overlaps are far too rare to be met by tests.", "anchors": ["cipher/aes_siv.py:siv_encrypt"]}
{"id": "C131", "title": "Length of base-N texts", "statement": "For an alphabet of N >= 2 symbols base_N_encode returns a text of at most L symbols exactly when the octets, read as a big-endian number, are below N**L. L symbols are enough for all strings of n octets exactly when 256**n <= N**L, and n octets 0xff have the longest text. For b27encode, b85encode and b94encode, 6 octets give at most 11, 8 and 8 symbols, and 16 octets at most 27, 20 and 20.", "quantifier": "all octet strings, all alphabets of at least two symbols, all lengths", "why_tests_cant": "Texts drop leading zeros, so lengths vary with the value; the bound is over all strings of a length.", "anchors": ["cipher/encoding.py:base_N_encode", "cipher/encoding.py:b27encode", "cipher/encoding.py:b85encode", "cipher/encoding.py:b94encode"]}
{"id": "C132", "title": "The NIST curves follow from their seeds", "statement": "For each curve class that records seed and seed_c (secp192r1, secp224r1, secp256r1, secp384r1, secp521r1): seed_c is the number that ANSI X9.62 derives from seed with SHA-1 for the bit length of p; a is p - 3; and b and p - b are the only numbers b' in [0, p) with (seed_c*b'**2 + 27) % p == 0, the relation the source quotes as a comment.", "quantifier": "all curve classes with both attributes; for each, all candidate coefficients below p", "why_tests_cant": "The library never evaluates the relation (the assertions are comments) and contains no SHA-1; uniqueness is over all numbers below p.", "anchors": ["ecc/curves.py:SECP_192r1.seed", "ecc/curves.py:SECP_192r1.seed_c", "ecc/curves.py:SECP_224r1", "ecc/curves.py:SECP_256r1", "ecc/curves.py:SECP_384r1", "ecc/curves.py:SECP_521r1"]}
{"id": "C133", "title": "brainpool_seeds cuts true digits of pi", "statement": "brainpool_seeds(n, w) for natural numbers: a string is raised when n*w > 3321 or w is not a multiple of 8; ValueError when w = 0 and n > 0; otherwise it returns n numbers, and number i is floor(pi * 2**(w*(i+1) - 4)) mod 2**w for the real number pi, although the function only has 1000 decimal digits. brainPoolRequirements never returns: it raises NameError when p > 3 and p % 4 == 3 and AssertionError otherwise.", "quantifier": "all natural numbers n and w; all integers p", "why_tests_cant": "Correct digits for every admitted pair need a bound on the truncation error at every position, and a statement about the real number pi.", "anchors": ["ecc/test/test_brainpoolseeds.py:brainpool_seeds", "ecc/test/test_brainpoolseeds.py:brainPoolRequirements", "ecc/test/test_brainpoolseeds.py:pi1k"]}
{"id": "C134", "title": "The Brainpool curves follow from their seeds", "statement": "The seven recorded seed_p are what brainpool_seeds() returns, consecutive 160-bit segments of pi, and the seven seed_ab are those of Euler's number. The Brainpool generation of a prime (least prime 3 mod 4 from the SHA-1 expansion of the seed on; next seed if it has the wrong bit length) started with seed_p ends with p of the curve, and with no other number. a is the number of one of the seeds from seed_ab on, -3 = a*z**4 has a solution mod p, and b is the first number of a later seed that is not a square mod p.", "quantifier": "all seven random Brainpool curve classes; the minimality of p and of b is over all candidates", "why_tests_cant": "The library has no generation code to run; minimality of p quantifies over all primes from the seed on and the seeds are digits of real numbers.", "anchors": ["ecc/curves.py:BrainPoolP160r1.seed_p", "ecc/curves.py:BrainPoolP192r1", "ecc/curves.py:BrainPoolP224r1", "ecc/curves.py:BrainPoolP256r1", "ecc/curves.py:BrainPoolP320r1", "ecc/curves.py:BrainPoolP384r1", "ecc/curves.py:BrainPoolP512r1", "ecc/test/test_brainpoolseeds.py:brainpool_seeds"]}
{"id": "C135", "title": "What the substitution tables of the analysis scripts are", "statement": "For every octet x, entry x of the AES table used by sbox_analysis, permutation and sbox_nonlinearity is the FIPS 197 value: the inverse of x modulo X^8+X^4+X^3+X+1 (0 for 0) followed by the FIPS affine map; entry x of the SMS4 table is A(I(A(x))) with I inversion modulo X^8+X^7+X^6+X^5+X^4+X^2+1 and A the affine map with circulant matrix A7 and constant D3. The table named streebog_sbbytes, whose non-linearity is printed as Streebog's, is the BelT table of STB 34.101.31 (0 at 10, 8E at 11, every further entry 116 shift-register steps on) and not the table that the script holds under the name pi (that pi is the table of Streebog is not part of the claim). Whatever the order of the dictionary keys, orbit_start_and_length returns exactly the orbits 0:59, 1:81, 4:87, 11:27, 115:2 for AES and 0:120, 1:24, 4:56, 13:35, 36:9, 45:3, 54:6, 171:1, 180:2 for SMS4; the AES table has no fixed point and no complementary fixed point, and the SMS4 table fixes AB alone.", "quantifier": "all octets; all dictionary key orders", "why_tests_cant": "A test can compare the tables with another copy of themselves; that every entry is the algebraic value of the standard, and that a table carries the wrong name, needs the definition of the field.", "anchors": ["analysis/sbox_analysis.py:12-108", "analysis/permutation.py:42-107", "analysis/sbox_nonlinearity.py:75-192"]}
{"id": "C136", "title": "GOSTmsg05975sw is GOSTmsg05975te in other coordinates", "statement": "For every prime p > 3 and every complete Edwards curve modulo p, (x,y) -> ((a-d)/4*w + (a+d)/6, (a-d)/4*w/x) with w = (1+y)/(1-y), with (0,-1) going to ((a+d)/6, 0) and (0,1) to infinity, is an isomorphism onto the group of the Weierstrass curve with 48*A = 3(a-d)^2 - 4(a+d)^2 and 864*B = 8(a+d)^3 - 9(a+d)(a-d)^2. GOSTmsg05975sw has these coefficients for the a and d of GOSTmsg05975te, and the generator of te goes to the generator of sw. Hence k*G on GOSTmsg05975sw, for every integer k at which it does not raise (C101), is the image of the k-fold sum of the generator of GOSTmsg05975te, whose own methods reject nearly every result (C109). The group of GOSTmsg05975sw has exactly n = 4*q points; the attribute n of GOSTmsg05975te is a quarter of the number of points of the quadratic twist y^2 = x^3 + a*x - b and not of the curve.", "quantifier": "all primes p > 3, all complete Edwards curves and points; all integers k", "why_tests_cant": "A test can map single points; that the map is an isomorphism of groups and that an attribute counts the points of another curve are statements about all points.", "anchors": ["ecc/curves.py:317-366", "ecc/ecc.py:134-166", "ecc/ecc.py:40-130"]}
{"id": "C137", "title": "Which keys and messages Michael cannot tell apart", "statement": "Reading a prefix of whole words amounts to changing the key: for every key and prefix there is exactly one key that gives every message the MIC the first key gives the prefixed message. Two prefixes of whole words with equal MICs for one continuation have equal MICs for every continuation. One message with its MIC gives the MIC of every message: the key computed from them by one pass in reverse order is right for all messages. Changing the left half of the key by w is the same as changing the first word of the message by w. With the zero key any number of zero words can be put before a message unnoticed, and every prefix reaches this state under exactly one key.", "quantifier": "all keys of 8 octets, all prefixes of whole words, all messages, all word differences", "why_tests_cant": "The claims compare all continuations of a message and all keys; a test sees single MICs.", "anchors": ["hash/michael.py:Michael.hash", "hash/michael.py:Michael.__call__", "hash/michael.py:b"]}
{"id": "C138", "title": "What montgomery_ladder2 would compute", "statement": "montgomery_ladder2 raises because x_1 is never bound (C99). If the name were bound to the x-coordinate the loop would be that of RFC 7748 with the constant (a-2)/4 rounded down, but started at x_2 = 0, z_2 = 1, and the result would be the numerator x_2 reduced modulo p, or 0 if z_2 is 0. For the scalar 1 and every point whose x-coordinate is not zero modulo p it would return the same number 4^(2^255-1) mod p, on Curve25519 always 2^38.", "quantifier": "all Montgomery curve objects with an odd prime modulus, all natural scalars, all integer coordinates", "why_tests_cant": "A test would compare a few points; the claim is for all scalars and coordinates, and the intermediate numbers are too large to compute.", "anchors": ["ecc/ecc.py:MontgomeryCurveFp.montgomery_ladder2", "ecc/ecc.py:cswap"]}
{"id": "C139", "title": "What one Poly1305 tag gives away", "statement": "For every message, every first half of a 32 octet key and every 16 octet tag exactly one second half makes poly1305_mac return the tag, so each tag of a message is given by exactly 2^128 of the 2^256 keys, one for each first half. Of these keys at most 8*q*2^22 give another message a chosen tag, if both messages have at most 16*q octets: one use of a key leaves a forger a chance of at most 8*q/2^106.", "quantifier": "all messages, all pairs of different messages, all tags, all 32 octet keys", "why_tests_cant": "It counts keys among 2^256.", "anchors": ["cipher/chacha_poly.py:poly1305_mac", "cipher/chacha_poly.py:clamp"]}
{"id": "C140", "title": "Which lists the polynomial functions change", "statement": "polynomial_reduce_mod overwrites the list it is given as poly whenever it is at least as long as polymod and does not end with 0: one step of the division is left in it, so that it stands for another residue class than before. It changes no other list, returns the argument itself if it is shorter than polymod and a new list otherwise, and returns the right remainder even if both arguments are one list, which it destroys (it becomes x^n). polynomial_multiply_mod changes no list and returns a new one. polynomial_exp_mod changes no list and returns a new one, except that it returns base itself for the exponent 1 and for negative odd exponents.", "quantifier": "all heaps of lists, all arguments, aliased or not, all exponents, all p other than 0", "why_tests_cant": "Tests look at returned values; whether a caller's list survives, and under which aliasing, is a statement about all objects of the program.", "anchors": ["ecc/numbertheory.py:polynomial_reduce_mod", "ecc/numbertheory.py:polynomial_multiply_mod", "ecc/numbertheory.py:polynomial_exp_mod"]}
{"id": "C141", "title": "Which scalars give points that share a coordinate", "statement": "On every shipped Weierstrass curve of prime order n the multiples j*P and k*P of a finite valid point have the same x (or are both infinite) exactly when j = k or j = -k modulo n. On SECP_256k1, the only one with a = 0, multiplying any valid point by one fixed number lambda leaves y as it is and multiplies x by a fixed number beta modulo p; and j*P and k*P have the same y exactly when j is k, lambda*k or lambda**2*k modulo n. So x alone hides the sign of a private key and y alone hides three keys.", "quantifier": "all shipped prime order curves, all curve objects, all finite valid points with reduced coordinates, all integers j and k", "why_tests_cant": "It compares all pairs of scalars, about 2^512 of them, for all points.", "anchors": ["ecc/ecc.py:77-105", "ecc/curves.py:SECP_256k1", "ecc/ellipticcurve.py:83-88"]}
{"id": "C142", "title": "The sequence of point operations of scalar_multiple", "statement": "For a finite point and a scalar k with e = k mod n not 0 the operations called by scalar_multiple are, for each digit after the first of a non-adjacent form of e (digits -1, 0, 1, no two neighbours other than 0, first digit 1), one doubling, followed by the addition of the point for digit 1 and of its negative for digit -1. Doing the same to the number 1 gives e, so the sequence gives the scalar away. The number d of doublings satisfies 2^(d+1) <= 3e < 2^(d+2), there are at most d/2 additions, and no signed binary form of e needs fewer additions. An observer who cannot tell the two kinds of additions apart is left with at most 2^a scalars, a the number of additions. For e = 0 and for the point at infinity there are no operations.", "quantifier": "all curve objects with n > 0, all points, all integer scalars for which the multiplication succeeds; on the shipped prime order curves that is every scalar", "why_tests_cant": "The results of the calls do not show the operations, and minimality ranges over all signed forms of all scalars.", "anchors": ["ecc/ecc.py:77-105", "ecc/ellipticcurve.py:83-96"]}
{"id": "C143", "title": "How large the non-linearity of a list or a substitution table can be, and which lists reach the limit", "statement": "For lists of 4^m bits (m >= 1) nonLinearity returns the limit 2^(2m-1) - 2^(m-1) exactly when every entry of walshTransform is 2^m or -2^m, and exactly when the list differs from each of its translates x -> x xor a (a nonzero) in half of the places; such lists exist for every m, and the number of ones in them is 2^(2m-1) + 2^(m-1) or 2^(2m-1) - 2^(m-1), so they are never balanced. For an odd number of inputs the limit of C89 is never met. Whatever the table of 2^n entries given to sboxNonlinearity, the smaller returned number is at most (2^n - sqrt(2^(n+1)))/2, so at most 116 for 256 entries and 5 for 16 entries; for invertible tables of at least four entries both returned numbers are even, so an invertible table of 16 entries returns at most 4.", "quantifier": "all bit lists of length 2^n; all tables of length 2^n, whatever their entries; all invertible tables", "why_tests_cant": "The limits speak about all 2^(2^n) lists and all tables of a size; a test computes the figure of one table and cannot say that no other table does better.", "anchors": ["analysis/walshtransform.py:nonLinearity", "analysis/walshtransform.py:walshTransform", "analysis/sbox_nonlinearity.py:sboxNonlinearity"]}
{"id": "C144", "title": "Up to where is_prime, next_prime and factorization are exact", "statement": "is_prime(n) is False for every n above 1229 that is divisible by one of the primes it uses as bases; for numbers of less than 100 bits these are all primes up to 173. For n < 179**4 = 1026625681 is_prime(n) is True exactly when n is prime, provided the float logarithm is below 99 there. Hence next_prime(s) is the least prime above s for every s < 513312840, and for 1 <= n < 179**4 all bases returned by factorization(n) are prime and phi(n) is Euler's function.", "quantifier": "all integers below 179^4; all n above 1229 with a factor among the bases; all float logarithms below 99", "why_tests_cant": "A test samples some numbers; the strong pseudoprimes to the first bases are rare (1373653 is the first for the bases 2 and 3), so random samples miss them.", "anchors": ["ecc/numbertheory.py:is_prime", "ecc/numbertheory.py:next_prime", "ecc/numbertheory.py:factorization", "ecc/numbertheory.py:phi"]}
{"id": "C145", "title": "How order_mod, carmichael and phi fit together", "statement": "If the factorization of n is complete, then for n >= 3 every value order_mod(x, n) divides carmichael(n) and carmichael(n) divides phi(n), even where order_mod wrongly returns 2 for x = 1 mod n; for n >= 2 some x between 1 and n-1 has order_mod(x, n) == carmichael(n). For n = 2, order_mod(3, 2) is 2 while carmichael(2) is 1. If is_prime accepts a composite n without a factor up to 1229, then factorization(n) is [(n, 1)] and phi(n) and carmichael(n) both return n - 1, more than the true values; such an n exists.", "quantifier": "all n with complete factorization, all x; all composite n accepted by is_prime", "why_tests_cant": "Relates three functions over all arguments; the wrong totient needs a composite number that passes all fixed bases, which no sampled test meets.", "anchors": ["ecc/numbertheory.py:order_mod", "ecc/numbertheory.py:carmichael", "ecc/numbertheory.py:phi", "ecc/numbertheory.py:factorization"]}
{"id": "C146", "title": "What the square root functions do when the modulus is not prime", "statement": "square_root_mod_prime checks nothing about p beyond the Jacobi symbol. An even p > 2 is an AssertionError for every non-zero a. For odd p, prime or not, a SquareRootError is always justified: a is coprime to p and has no root. For p = 3 mod 4 every other a gets a^((p+1)/4) mod p without an exception, which is a root exactly when a^((p+1)/2) = a mod p; and for every composite p = 3 mod 4 there is an a coprime to p for which the returned number is not a root. For p = 5 mod 8 the answer is a root whenever a^((p-1)/4) = 1, whatever p is; when it is -1 it is a root exactly when a*2^((p-1)/2) = -a mod p; otherwise a RuntimeError is raised. modular_sqrt on a modulus that is 3 mod 4, prime or not, returns 0 or a true root; but on an odd modulus that is 1 mod 4 for which no n^((p-1)/2) is -1, such as 561, it never returns for any non-zero a with a^((p-1)/2) = 1.", "quantifier": "all integers a and all moduli p, composite ones included", "why_tests_cant": "Existence of a wrong answer for every composite modulus of a class, and non-termination, are statements about infinitely many moduli and an unbounded loop.", "anchors": ["ecc/numbertheory.py:square_root_mod_prime", "ecc/numbertheory.py:modular_sqrt", "ecc/numbertheory.py:legendre_symbol"]}
{"id": "C147", "title": "With AES itself: tags of short messages differ, every tag can be reached, and some keys never give a tag", "statement": "With AES of FIPS 197 as the cipher module, and not an arbitrary cipher: under every key AES maps the 16 octet blocks one to one onto themselves. So two different messages of one block, or two different messages shorter than a block, never get the same tag from aes_cmac under the same key. For every key whose first subkey has a non-zero first octet, every prefix of whole blocks can be completed by one block, and only one, to a message with any wanted tag. There are keys of 16, 24 and 32 octets with which aes_cmac raises AssertionError for every message; a key with which it does so exactly for messages of whole blocks, and one with which it does so exactly for all others. With such a key as first half siv_encrypt raises AssertionError for every plain text and every list of headers, and siv_decrypt never returns a plain text. The AES table in analysis/sboxes.py is the one of this cipher.", "quantifier": "all keys and messages; all headers", "why_tests_cant": "No test can compare all pairs of messages or all plain texts under a key; the published vectors all use keys whose subkeys have full length.", "anchors": ["cipher/aes_cmac.py:aes_cmac", "cipher/aes_cmac.py:subkey", "cipher/aes_siv.py:siv_encrypt", "cipher/aes_siv.py:siv_decrypt"]}
{"id": "C148", "title": "When two messages have the same HMAC, PRF value or derived key", "statement": "Under one key two messages have the same HMAC exactly if their inner hash values agree or the two inputs of the outer hash are a collision; so if different messages have the same MAC, one of two explicitly given pairs of octet strings is a collision of the hash function. If PRF gives the same 20 or more octets for different pairs of label and data, and the labels contain no zero octet, the first messages given to the MAC differ and have the same MAC; for PRF_128 they agree in the first 16 octets of the MAC. With one iteration, two salts for which pbkdf2 gives the same key of at least one block yield two explicit messages with the same MAC. One more iteration leaves a derived key of one block unchanged exactly if the next value of the chain is all zero.", "quantifier": "all hash functions and MACs, all keys, messages, labels without zero octet, salts and iteration counts", "why_tests_cant": "A test can show that two messages have different MACs; that equal MACs lead to a collision is about all pairs of messages.", "anchors": ["hash/hmac.py:HMAC.digest", "hash/hmac.py:HMAC.setKey", "hash/prf_dot11.py:PRF", "hash/pbkdf2.py:pbkdf2"]}
{"id": "C149", "title": "HMAC, PBKDF2 and the 802.11 PRF with SHA-1 itself", "statement": "With SHA-1 of FIPS 180-4 as the hash module: HMAC_SHA1 with a key of at most 64 octets is HMAC-SHA-1 of RFC 2104 for every message, dot11PassPhraseToPSK gives PBKDF2-HMAC-SHA-1 with 4096 iterations and 32 octets for every pass phrase of 8 to 63 octets, and PRF gives the 802.11i value for every multiple of 8 bits below 40960 and raises ValueError otherwise. With a longer key it is not HMAC-SHA-1: the published digests of RFC 2202 cases 6 and 7 are not obtained, and any key of more than 64 octets for which the MAC is right yields an explicit SHA-1 collision between a string of 40 and one of 84 octets.", "quantifier": "all keys, messages, pass phrases, network names, labels, data and bit counts", "why_tests_cant": "The recorded values use short keys; a test can not cover all messages and pass phrases.", "anchors": ["hash/hmac.py:HMAC.setKey", "hash/hmac.py:HMAC_SHA1", "hash/pbkdf2.py:dot11PassPhraseToPSK", "hash/prf_dot11.py:PRF"]}
{"id": "C150", "title": "The counter and the figures in the docstring of is_prime", "statement": "is_prime gives the same answer whether or not the global miller_rabin_test_count is looked at. After the call the count is 0 if n <= 1229, n has a factor 2, 3, 5, 7 or 11, or n passes all rounds; otherwise n is a strong probable prime to the first count-1 primes and not to the next. Of the odd composite numbers from 10000001 to 19999999 exactly 66 get past the first test and exactly 5 past the second, and every composite number of the range is rejected by the third test at the latest, as the docstring says. The numbers tested by Miller-Rabin there are 2077923, not 4.57 million as the docstring says.", "quantifier": "all integers n >= 0; all numbers of the range; all float logarithms below 99", "why_tests_cant": "The figures are about ten million calls and the meaning of the counter about all numbers; no test looks at the counter.", "anchors": ["ecc/numbertheory.py:is_prime", "ecc/numbertheory.py:miller_rabin_test_count"]}
{"id": "C151", "title": "Encoded texts in order", "statement": "Octet strings of one length compare as the integers string_to_int gives, and integers written by int_to_string with one non-zero padto compare as the integers. Texts of b94encode (and of base_N_encode over any strictly ascending alphabet with two or more symbols) compare as the encoded integers if the shorter one counts as smaller and texts of equal length are compared as strings. For b27encode and b85encode this fails already for single octets, since their alphabets are not in ascending order, and plain string comparison fails for b94encode (93 and 94).", "quantifier": "all octet strings, all integers, all padto, all ascending alphabets", "why_tests_cant": "Order is a statement about all pairs of strings; the repository's tests compare single texts for equality.", "anchors": ["cipher/encoding.py:int_to_string", "cipher/encoding.py:string_to_int", "cipher/encoding.py:base_N_encode", "cipher/encoding.py:b27encode", "cipher/encoding.py:b85encode", "cipher/encoding.py:b94encode"]}
{"id": "C152", "title": "Which keys AES-SIV accepts and which octets of them count", "statement": "siv_encrypt and siv_decrypt raise ValueError exactly if the length of the key is not 32, 33, 48, 49, 64 or 65 octets, whatever the other arguments are. The middle octet of a key of odd length is ignored: encryption and decryption under k1 + m + k2 are those under k1 + k2 for every m, so a text encrypted under one such key decrypts under the 255 other ones.", "quantifier": "all keys, all texts, all lists of associated data; the key split for every block cipher", "why_tests_cant": "The tests use one key of 32 octets; accepted lengths and unused octets concern all keys.", "anchors": ["cipher/aes_siv.py:siv_encrypt", "cipher/aes_siv.py:siv_decrypt"]}
{"id": "C153", "title": "The self-test of numbertheory.py finds no error, whatever random numbers it draws", "statement": "Running numbertheory.py as a script prints '0 errors detected.' for every sequence of random numbers in the ranges it asks for, and no exception is raised before its last assertion. The number of tests it prints is the number of drawn pairs (a, m) without a common factor. The last assertion, n_tests > 1000, fails exactly if at most 1000 such pairs were drawn, so with some draws in range the script stops there although no function is wrong. The loop over the square roots would find no error for any prime modulus, and the loop over the Jacobi symbol none for any odd modulus up to 1229.", "quantifier": "for all draws of 100 moduli in 20..10000 and 100 numbers in 1..m-1 for each; for all primes p; for all odd m from 3 to 1229; for all log2 below 99 on the numbers below 179^4", "why_tests_cant": "The script draws 10100 random numbers; one run shows one draw out of more than 10^30000. Whether another draw makes it report an error or stop at an assertion cannot be settled by running it again.", "anchors": ["ecc/numbertheory.py:587-699", "ecc/numbertheory.py:632-654", "ecc/numbertheory.py:657-679", "ecc/numbertheory.py:684-699"]}
{"id": "C154", "title": "What the tests in fmath/prime_test.py establish about rabin_miller", "statement": "test50K, run on a file with the first k primes, prints exactly the record holders: the odd composite numbers below the k-th prime whose least prime witness is above 2 and above that of every smaller odd composite number, each with that witness, and then the k-th prime; it never raises. With the 50000 primes that its name promises it prints one line, 2047 with the witness 3, and 611953. The next line, for a longer file, is 1373653 with the witness 5. With fewer than two numbers in the file it ends with a NameError. For numbers from 206 to 1373652, testKnowPrimes succeeds exactly if all are prime and testKnowComposites exactly if none is; otherwise they end with an AssertionError. Both succeed on the lists in the file.", "quantifier": "for all k >= 2 and the first k primes; for all lists of numbers from 206 to 1373652", "why_tests_cant": "It says what the outcome of these tests means: that no number in the range passes all bases, not only the forty listed ones, and what the printed witnesses are for every length of the file, which is not in the repository.", "anchors": ["fmath/prime_test.py:15-19", "fmath/prime_test.py:20-28", "fmath/prime_test.py:29-50", "fmath/prime_test.py:52-60"]}
{"id": "C155", "title": "When the random test of the field elements and the example scripts of the text encodings fail", "statement": "The loop of test_misc in fmath/test/test_galoisfields.py ends with the exception of inverse_mod exactly if one of the drawn numbers is 0, and succeeds otherwise, for every prime p; of the p^100 possible draws for p = 2^255 - 19 exactly (p-1)^100 let it succeed. The loop of test_basic in cipher/test/test_encoding.py succeeds for every list of numbers from 0 on, not only for 0 to 999. The script part of cipher/encoding.py succeeds exactly if the first 16 octets of the hash value do not start with a zero octet, and otherwise ends with an AssertionError; example_encoding.py prints its six texts under the same condition. With SHA-256 both succeed, and the six texts are JEQGFF4M7HBFQNH3CKYEQMMX666, R6NKA86CMH2EDMTKQRKKBN9K3RG, KBWE9WK7ZDBH8T7JWW4FDHB39C3, XW9Z2GWP7MGDHBGBMA63XKYAXPT, Q4RMK4FZT432RZ4QZA88YQ94M2E and FCD3BG9WHBAZYW8JWK7FYEGN89Y.", "quantifier": "for all primes p and all lists of draws below p; for all lists of natural numbers; for all hash functions", "why_tests_cant": "A test can not tell for which random draws or hash values it would itself fail; the failing draws are about one in 2^248.", "anchors": ["fmath/test/test_galoisfields.py:55-65", "cipher/test/test_encoding.py:40-47", "cipher/encoding.py:99-129", "cipher/test/example_encoding.py:20-80"]}
{"id": "C156", "title": "When the errors of is_prime reach factorization, phi, carmichael and next_prime", "statement": "Let r be the largest divisor of n without prime factors up to 1229. All bases that factorization(n) returns are prime exactly unless r is a composite number that is_prime accepts; in that case the last pair is (r, 1), and phi(n) is phi(n/r)*(r-1), which is more than Euler's function; in all other cases phi(n) is Euler's function. The 793-bit product n of the three primes of C66 is such a case for n itself: next_prime(n-1) and next_prime(n-2) return it, factorization(n) is [(n, 1)], and phi(n) and carmichael(n) are n-1, while the true values are (p-1)(q-1)(r-1) and lcm(p-1, q-1, r-1), both smaller.", "quantifier": "all n >= 1 and all float logarithms; the three primes of C66", "why_tests_cant": "Numbers that is_prime wrongly accepts are practically never drawn at random, and exactness for all other n is a statement about infinitely many numbers.", "anchors": ["ecc/numbertheory.py:factorization", "ecc/numbertheory.py:phi", "ecc/numbertheory.py:carmichael", "ecc/numbertheory.py:next_prime", "ecc/numbertheory.py:is_prime"]}
{"id": "C157", "title": "Powers of field elements and field elements as exponents", "statement": "In GFp(p), with an integer exponent the laws x^(j+k) = (x^j)*(x^k), (x^j)^k = x^(j*k) and (x*y)^k = (x^k)*(y^k) hold for every p >= 1; for prime p also x^p = x, and for x other than zero x^(p-1) = 1 and x^(p-2) = 1/x. With field elements as exponents the first law fails on wrap-around: for prime p, a^(x+y) equals (a^x)*(a^y) exactly if the values of x and y add to less than p, or a is 1 mod p, or a is 0 mod p and the values do not add to p. Written as in the docstring without parentheses, x^2+3*x+1 is x to the power of (3*x+3) mod p and not the quadratic polynomial; (x^2)+3*x+1 is the polynomial. The ** that the docstring mentions raises TypeError.", "quantifier": "all moduli p >= 1 (or all primes p, where said), all values, all natural exponents", "why_tests_cant": "A test checks single expressions; the exact condition for the law with element exponents and the meaning of the unparenthesised expression concern all moduli and values.", "anchors": ["fmath/galoisfield.py:Element_of_GFp.__xor__", "fmath/galoisfield.py:Element_of_GFp.__rxor__", "fmath/galoisfield.py:GFp"]}
{"id": "C158", "title": "What the auxiliary number functions return for integers of any sign", "statement": "modular_exp raises NegativeExponentError for a negative exponent, ValueError for modulus 0, and otherwise returns the number congruent to the power that lies in [0, m) for m > 0 and in (m, 0] for m < 0. gcd2(a, b) is the greatest common divisor with the sign of a, or b if a is 0; lcm2(a, b) is the least common multiple with the sign of b. egcd(a, b) of galoisfield.py is (g, x, y) with x*a + y*b = g and g signed in the same way. Therefore galoisfield.inverse_mod(a, m) returns an inverse exactly if m is not 0, gcd(a, m) = 1 and a > 0 (or a = 0 and m = 1), and raises otherwise, in particular for every negative a; for m > 1 and a >= 0 it agrees with numbertheory.inverse_mod, which takes negative a but fails its assertion for every negative m. carmichael_of_factorized of pairs (prime, exponent >= 1) in any order is the Carmichael function of the least common multiple of the powers, which is their product if the primes differ; with repeated primes it divides the Carmichael function of the product, is smaller for two powers of one odd prime, and may happen to be right ([(3,1),(3,1),(7,1)] gives 6, as 63 does).", "quantifier": "all integers a, b, e, m; all lists of pairs of a prime and a positive exponent", "why_tests_cant": "Signs, zero and repeated primes combine in many ways, and the claims are about all integers.", "anchors": ["ecc/numbertheory.py:modular_exp", "ecc/numbertheory.py:gcd2", "ecc/numbertheory.py:lcm2", "ecc/numbertheory.py:inverse_mod", "ecc/numbertheory.py:carmichael_of_factorized", "ecc/numbertheory.py:carmichael_of_ppower", "fmath/galoisfield.py:egcd", "fmath/galoisfield.py:inverse_mod"]}
{"id": "C159", "title": "What the programs in analysis/ print", "statement": "permutation.py can not be used: its program raises NameError because the functions stand inside a class; orbit_start_and_length raises NameError for every object of the class and of its subclasses, map_orbits_of_permutation raises TypeError for every object of the class, and calls through the class raise TypeError; only an object of a subclass that also is a sequence gets its orbits from map_orbits_of_permutation. sbox_analysis.py prints 5 orbits for AES and 9 for SMS4 with the starts and lengths of C135, in some order. walshtransform.py prints three transforms with non-linearity 0, 2 and 1. sbox_nonlinearity.py prints (112, 112), (112, 112), (102, 110), and for every possible result of shuffle two even numbers for the random table, the smaller at most 116 and the larger at most 118.", "quantifier": "all dictionary orders; all 256! results of shuffle; all objects of the class and its subclasses", "why_tests_cant": "The random table is different in each run, and no test can run all permutations of 256 entries.", "anchors": ["analysis/permutation.py:permutation", "analysis/permutation.py:main", "analysis/sbox_analysis.py:main", "analysis/walshtransform.py", "analysis/sbox_nonlinearity.py"]}
{"id": "C160", "title": "What a TKIP per-packet RC4 key gives away", "statement": "From the 16 octets of any RC4 key returned by phase2KeyMixing alone, without knowing anything else, bits 1 to 8 of the temporal key (read as a little-endian number) can be computed: they are octet 3 xor the bits 1 to 8 of octets 14 and 15. This holds for every substitution table, phase 1 key (also one that is out of date) and packet number. So equal RC4 keys, even of different stations or tables, come from temporal keys that agree in these bits. The second octet is determined by the first, has bit 5 set and bit 7 clear, so it is never 255, the value the known weak initialisation vectors of RC4 have there.", "quantifier": "all substitution tables, temporal keys, phase 1 keys, transmitter addresses and packet numbers", "why_tests_cant": "A test sees a few keys; the claim is about every temporal key and packet number, and about all tables.", "anchors": ["hash/tkip_key_mixing.py:TKIP_Mixer", "hash/tkip_key_mixing.py:phase2KeyMixing"]}
{"id": "C161", "title": "CMAC tags can not be forged unless the block cipher is to blame", "statement": "Put any function f on 128-bit blocks in place of the AES module of the key (that is, take AES to be an unknown table). (1) Take any strategy that calls aes_cmac(key, M) for messages of its choice, each message depending on the results so far, and that ends by naming a message it did not ask about and a tag for it. If the messages have c blocks together (the empty message is one block, and the last message is counted too), the named tag is the one aes_cmac returns for at most 3 * (c * (c + 1) / 2 + 1) in 2^128 of all functions f, however the strategy is made. (2) Among the functions for which aes_cmac raises no exception, the results can not be told from independent random 16-octet strings: for every strategy and every conclusion, the share of the functions f that lead the strategy to the conclusion exceeds the share for a random table of tags by at most c * (c + 1) / 2 in 2^128. (3) The exceptions are not rare: for every message exactly one function in 256 makes aes_cmac raise AssertionError, one in 512 does so for every message, and 509 in 512 for no message.", "quantifier": "for all adaptive strategies (decision trees over octet strings and results, exceptions included), all totals c of blocks, all keys accepted by the module, with the count taken over all functions from 128-bit blocks to 128-bit blocks", "why_tests_cant": "The claim is about every strategy that could be used against the function and counts all (2^128)^(2^128) tables; a test runs one strategy against one table.", "anchors": ["cipher/aes_cmac.py:aes_cmac", "cipher/aes_cmac.py:subkey", "cipher/aes_cmac.py:pad"]}
{"id": "C162", "title": "dbl is the multiplication by a generator of the field with 2^128 elements", "statement": "The polynomial x^128 + x^7 + x^2 + x + 1 behind dbl (and behind the subkeys of aes_cmac) is irreducible, so the 16 octet strings with xor and dbl are a field in which dbl multiplies by x. Starting from any 16 octet string other than the zero string, repeated dbl comes back to the start after exactly 2^128 - 1 steps (n steps lead back exactly if 2^128 - 1 divides n) and visits every other string except zero on the way. The first 128 strings s, dbl(s), dbl(dbl(s)), ... never cancel: the xor of any selection of them, at least one, is not zero unless s is. This is what S2V relies on when it mixes up to 127 components with different numbers of doublings.", "quantifier": "for all 16 octet strings, all numbers of doublings, all nonempty selections of numbers below 128", "why_tests_cant": "The cycle has 2^128 - 1 steps and there are 2^128 - 1 selections; a wrong constant in place of 0x87 (for example 0x86 or 0x8d) passes round-trip tests but gives a ring with zero divisors or short cycles.", "anchors": ["cipher/aes_siv.py:dbl", "cipher/aes_cmac.py:subkey"]}
{"id": "C163", "title": "Made-up ciphertexts are rejected by siv_decrypt, up to a proved bound, if AES under the first key half is a random function", "statement": "Let somebody ask siv_encrypt and siv_decrypt for any plaintexts, ciphertexts and headers, each chosen depending on all answers and exceptions before, with at most 126 headers at a time, at most q decryptions, and headers and plaintexts of at most c blocks in all. Count the functions from 16-octet blocks to 16-octet blocks put in place of AES under the first half of the key, the cipher under the second half being arbitrary. At most 2*((c+1)^2+q) in 2^128 of them let siv_decrypt accept a ciphertext that siv_encrypt has not returned before for the same headers. And as long as s2v raises no exception, what can be found out about it by asking for values of at most c blocks is found out as often about a random function on lists of headers and plaintexts, up to (c+1)^2 in 2^128.", "quantifier": "all adaptive strategies with any numbers of questions, all key pairs with different halves, all sets of accepted keys, all ciphers under the other keys, all numbers c and q", "why_tests_cant": "The claim counts over all 2^(128*2^128) functions and quantifies over all adaptive strategies.", "anchors": ["cipher/aes_siv.py:27-97", "cipher/aes_cmac.py:19-64"]}
{"id": "C164", "title": "With 129 headers or more, headers can be replaced without a change of the synthetic IV", "statement": "s2v, siv_encrypt and siv_decrypt accept any number of headers, while RFC 5297 allows 126. If a header occurs five times, with 120 other headers after the first time, 4 after the second time and the last three in a row, and anything before and after, then it can be replaced in all five places by any other header of the same kind (both or none made of whole blocks): s2v, siv_encrypt and siv_decrypt have the same outcome, for every cipher, key, plaintext and ciphertext. The same is true of S2V as in RFC 5297 with any function in place of AES-CMAC, for any two headers.", "quantifier": "all ciphers with 16-octet blocks, all keys, plaintexts, ciphertexts, headers before, between and after, and replacements", "why_tests_cant": "The collision needs a list of 129 headers at distances given by the field polynomial and holds for every cipher and key; tests use a few headers.", "anchors": ["cipher/aes_siv.py:42-97"]}
{"id": "C165", "title": "SIV ciphertexts look like random octets, with or without decryptions, up to a proved bound", "statement": "Put functions from 16-octet blocks to 16-octet blocks in place of AES under the two different halves of the key and count all pairs of functions for which aes_cmac raises no exception; exceptions are raised for at most one in 128 functions. Let somebody ask siv_encrypt for any plaintexts and headers, each chosen depending on all answers before, with at most 126 headers at a time and headers and plaintexts of at most c blocks in all. Whatever they conclude in the end, they conclude it about siv_encrypt at most 3*(c+1)^2 in 2^128 more often than about independent random strings, one for each list of headers and plaintext and each 16 octets longer than the plaintext. If they also ask siv_decrypt at most q times, decryptions can be answered without a key, with the known plaintext for earlier ciphertexts with the same headers and with siv_decrypt's exception for all others: the frequency changes by at most 5*(c+1)^2+2*q in 2^128.", "quantifier": "all adaptive strategies with any numbers of questions, all conclusions, all key pairs with different halves of equal length, all sets of accepted keys, all numbers c and q", "why_tests_cant": "The claim counts over all pairs of functions on blocks and all families of strings and quantifies over all adaptive strategies.", "anchors": ["cipher/aes_siv.py:42-97", "cipher/aes_cmac.py:19-64"]}
{"id": "C166", "title": "The bounds for AES-CMAC and SIV hold for random permutations in place of AES", "statement": "AES under a key is a permutation of the 16-octet blocks, not any function. Whatever somebody finds out about a function on blocks by asking for q values, each chosen depending on those before, happens as often for all permutations as for all functions up to q*(q-1)/2 in 2^128. So over all permutations in place of AES: at most 3*(c*(c+1)/2+1)+c*(c+1)/2 in 2^128 let somebody who has seen tags of messages give a new message with its tag, c blocks in all; tags cannot be told from random blocks up to c*(c+1) in 2^128 as long as no exception is raised; at most 2*((c+1)^2+q)+(c+1)*(c+2)/2 in 2^128 let siv_decrypt accept a ciphertext in q trials that siv_encrypt has not returned; and SIV ciphertexts cannot be told from random octets up to 4*(c+1)^2 in 2^128, or 6*(c+1)^2+2*q if decryptions are asked for as well. Exceptions are raised for at most one in 128 permutations.", "quantifier": "all adaptive strategies with any numbers of questions, all conclusions, all keys with different halves, all sets of accepted keys, all numbers c and q", "why_tests_cant": "The claim counts over all (2^128)! permutations of the blocks and quantifies over all adaptive strategies.", "anchors": ["cipher/aes_siv.py:27-97", "cipher/aes_cmac.py:19-64"]}
{"id": "C167", "title": "ChaCha20-Poly1305 outputs are exactly random strings if the block function is a random function", "statement": "Replace ChaCha.chacha20_block by a function that returns, for each counter and nonce, 64 octets of a table. Somebody asks a ChaCha20_AEAD object with a 32-octet key for encryptions, each chosen depending on the answers so far, never with the same nonce twice, with nonces of 12 octets and plaintexts of less than 2^32-1 blocks. Counted over all tables, every conclusion is exactly as frequent as if each ciphertext were a fresh random string of the length of the plaintext and each tag 16 fresh random octets: neither the plaintexts nor the associated data leave a trace. With chacha20_block itself the replaced functions are those of the class.", "quantifier": "all adaptive strategies that never repeat a nonce, all conclusions, all associated data, all plaintexts in the limit of the counter, all keys", "why_tests_cant": "The claim counts over all tables of 2^128 blocks and quantifies over all adaptive strategies.", "anchors": ["cipher/chacha_poly.py:201-222", "cipher/chacha_poly.py:287-306", "cipher/chacha_poly.py:367-371", "cipher/chacha_poly.py:543-557"]}
{"id": "C168", "title": "ChaCha20-Poly1305 with a random block function is authenticated encryption for recipients that encrypt again", "statement": "As C167, and in between somebody gives v times associated data, a nonce, a ciphertext and a tag to a recipient that calls decrypt, then encrypt on the plaintext, and accepts and shows the plaintext if ciphertext and tag come out as received (the class itself checks no tag). Every conclusion is as frequent, up to 8*q*v in 2^106, as with fresh random strings for encryptions and a recipient that accepts exactly the outcomes of earlier encryptions; q bounds the 16-octet blocks of associated data and text, with one for the lengths. In particular at most 8*q*v in 2^106 of all tables let the recipient ever accept something that encrypt has not returned, also under a nonce already used.", "quantifier": "all adaptive strategies that never encrypt twice under a nonce, with any number of encryptions and v openings, all conclusions, all v and q, all keys", "why_tests_cant": "The claim counts over all tables of 2^128 blocks and quantifies over all adaptive strategies.", "anchors": ["cipher/chacha_poly.py:287-306", "cipher/chacha_poly.py:367-371", "cipher/chacha_poly.py:543-557"]}
{"id": "C169", "title": "The iterations of pbkdf2 can not be skipped", "statement": "Replace the pseudorandom function under the password by a table with d octets for each string of at most n octets. Somebody who asks for q < c values of it, each chosen depending on those before, and then names a key, names what pbkdf2 returns for c iterations and a key of at least d octets for at most c*(c-1)/2+(c-1)*q+1 in 256^d of all tables. For dot11PassPhraseToPSK with a 20-octet function this is at most one in 2^135 with 4095 values. With c values the first d octets of the key can be computed, for every function, so exactly c values are needed.", "quantifier": "all adaptive strategies with less than c questions, all iteration counts, salts, passwords of at most 63 octets, key sizes from d to 10000 octets", "why_tests_cant": "The claim counts over all functions and quantifies over all ways to choose the questions.", "anchors": ["hash/pbkdf2.py:16-35", "hash/pbkdf2.py:37-42"]}
{"id": "C170", "title": "HMAC over a random hash function is a random function", "statement": "Take a uniformly random hash function with digests of d octets and a uniformly random key of k octets, k at most the block size. Somebody who may ask for qH hash values and for qM tags of an HMAC object with that key, each question depending on all answers before, ends with any given verdict with a probability that differs by at most 2*qH/256^k + qM*(qM-1)/2/256^d from the one with an independent random function in place of HMAC. So they name the tag of a message whose tag they have not asked for with a probability of at most 1/256^d + 2*qH/256^k + (qM+1)*qM/2/256^d.", "quantifier": "all block sizes, key lengths up to the block size, digest lengths, all adaptive strategies with any numbers of hash and tag questions, and all verdicts", "why_tests_cant": "It is about the fraction of all hash functions and keys, and about every strategy.", "anchors": ["hash/hmac.py:HMAC.setKey", "hash/hmac.py:HMAC.digest", "hash/hmac.py:HMAC.reset"]}
{"id": "C171", "title": "Keys derived by the 802.11 PRF are random if SHA-1 is a random function", "statement": "Take a uniformly random function with values of 20 octets in place of SHA-1 and a uniformly random key of k octets, k at most 64. Somebody who may ask for qH hash values and for keys PRF(key, A, B, 8*n), each question depending on all answers before, with labels A without zero octets and never the same A and B twice, ends with any given verdict with a probability that differs by at most 2*qH/256^k + q*(q-1)/2/256^20 from the one with independent random strings in place of the keys, where q adds up n/20 + 1 for each key.", "quantifier": "all key lengths up to 64, all adaptive strategies with any numbers of hash questions and keys, all labels without zero octets, all data, all key lengths n below 5120, all verdicts", "why_tests_cant": "It is about the fraction of all hash functions and keys, and about every strategy.", "anchors": ["hash/prf_dot11.py:PRF"]}
{"id": "C172", "title": "Keys derived by pbkdf2 from a random password are random if the hash function is", "statement": "Take a uniformly random hash function with digests of d octets and a uniformly random password of k octets, k at most 63. Somebody who may ask for qH hash values and for keys pbkdf2(password, salt, c, n) with HMAC over that hash function, each question depending on all answers before, never the same salt twice and all salts from a list of g salts fixed in advance, ends with any given verdict with a probability that differs by at most 2*qH/256^k + q*(q-1)/2/256^d + q*(q+g*b)/256^d from the one with independent random strings in place of the keys, where q adds up c for each block of d octets and b is the largest number of blocks of a key.", "quantifier": "all block sizes from 63, digest lengths, password lengths up to 63, numbers of iterations from 1, all adaptive strategies, all salts, all key lengths up to 10000, all verdicts", "why_tests_cant": "It is about the fraction of all hash functions and passwords, and about every strategy.", "anchors": ["hash/pbkdf2.py:pbkdf2", "hash/hmac.py:HMAC"]}
{"id": "C173", "title": "Guessing the password behind a pbkdf2 key costs c PRF calls per guess", "statement": "Let a password be taken at random from a dictionary and let somebody see the key that pbkdf2 derives from it with c iterations. With random functions in place of the pseudorandom function under each password, somebody who asks for q of its values, adaptively and under any passwords, can tell the key from a random string with an advantage of at most q/(c |dictionary|) plus a term of the order of the number of iterations times q over 256^d, and names the password with a chance of at most (q/c + 1)/|dictionary| plus the same term. For the pre-shared key of 802.11 that is one password for every 4096 questions. With c questions per password the search does succeed, so the bound is what it costs.", "quantifier": "all dictionaries of passwords of up to 63 octets, all salts, iteration counts and key sizes up to 10000 octets, all adaptive strategies with q questions, counted over all tables of functions and all passwords", "why_tests_cant": "The claim counts over all tables of functions and all strategies; a test has one function and one attack.", "anchors": ["hash/pbkdf2.py:16-35", "hash/pbkdf2.py:37-42"]}
{"id": "C174", "title": "What the interpreter's limits do", "statement": "Three limits of the Python 2 interpreter, which the other claims leave out, and where they matter. jacobi(a, n) gives the same result for every modulus n below 2^(d+1) if its calls can be nested d deep; for every d there is an odd n of at most 3^(d+1) for which it raises RuntimeError. square_root_mod_prime is unchanged if p is not 1 modulo 8, or if range(2, p) can be made; for a longer prime that is 1 modulo 8 it raises OverflowError or MemoryError for every square other than 0, and still SquareRootError for non-squares. So y_from_x never returns on SECP_224r1, NIST_P224, GOST2001_test and GOST2001_CryptoPro_B: with a sys.maxint of up to 128 bits it raises OverflowError for the x-coordinate of every point of the curve and SquareRootError for every other x. On the other 32 Weierstrass curves with cofactor 1 it is unchanged. MontgomeryCurveFp.scalar_multiple ends in RuntimeError for every negative scalar, and for a scalar of at least as many bits as calls can be nested. pbkdf2 raises OverflowError or MemoryError if range(2, iterations+1) is too long.", "quantifier": "all limits (sys.maxint, room for lists, depth of nested calls), all arguments of the functions, all 36 curves and all x", "why_tests_cant": "That no x at all works on four curves, and that the others are never affected, are statements about every x and every setting of the limits; a test sees one interpreter and a few x.", "anchors": ["ecc/numbertheory.py:123-181", "ecc/ecc.py:114-123", "ecc/ecc.py:241-248", "hash/pbkdf2.py:16-35"]}
{"id": "C175", "title": "Random nonces of ChaCha objects are safe up to the birthday bound", "statement": "ChaCha(key) without a nonce draws 12 octets from urandom and keeps them in words 13 to 15 of its state; an object given this nonce decrypts what it encrypts. If q messages of up to 2^38 octets are encrypted by q such objects with the same key, and a random function is in place of the block function of ChaCha20, nobody who chooses the messages adaptively can tell nonces and ciphertexts from random strings with an advantage above q(q-1)/2^97. The bound is sharp up to a factor of two for q up to 2^48: encrypting 64 zero octets q times and waiting for an equal answer achieves q(q-1)/2^98. test_random_nonce, which draws 100000 nonces, raises ValueError exactly if urandom repeats one; with n draws that is a share of at most n(n-1)/2^97 of the possible results, fewer than one in 10^19 for its 100000.", "quantifier": "all keys, all adaptive choices of messages, all numbers q, counted over all functions in place of the block function and all drawn nonces; all lists of nonces", "why_tests_cant": "The chance of a repeated nonce is far below what a test can observe, and the claim is about all strategies and all block functions.", "anchors": ["cipher/chacha_poly.py:201-222", "cipher/chacha_poly.py:229-234", "cipher/test/test_chacha_poly.py:883-910"]}
{"id": "C176", "title": "For which keys the SIV functions raise AssertionError, and how many there are", "statement": "siv_encrypt(key, pt, ad) raises AssertionError exactly if the first CMAC subkey of the first half of the key is below 2^120, or the second one is and is used, that is, if a header is empty or not made of whole 16-octet blocks, or the plaintext has more than 16 octets and is not made of whole blocks. In all other cases it returns the SIV ciphertext of RFC 5297. siv_decrypt raises AssertionError in the same cases for every ciphertext, also for one that another implementation of RFC 5297 has made with this key; otherwise it returns the plaintext of those and raises its string exception (TypeError) for all others. Over all functions, or all permutations, of 16-octet blocks in place of AES, this happens for exactly one in 256 if the second subkey is not used and for exactly 3 in 512 if it is.", "quantifier": "all block ciphers, keys with both halves accepted, headers, plaintexts and ciphertexts of up to 2^63 blocks; counted over all functions and all permutations of 16-octet blocks", "why_tests_cant": "The tests have a few keys whose subkeys are long; that a fixed share of keys can not be used at all is a count over all keys.", "anchors": ["cipher/aes_cmac.py:39-59", "cipher/aes_siv.py:42-56", "cipher/aes_siv.py:58-97"]}
{"id": "C177", "title": "How many rounds the loops of numbertheory.py run", "statement": "If gcd2(a, b) takes k >= 1 rounds, |a| is at least the Fibonacci number F(k+1), hence at least 2^(k/2); if |a| has at most d decimal digits there are at most 5*d rounds. inverse_mod(a, m), m > 0, taking k >= 1 rounds has m >= F(k+2), whatever a is, and at most 5*d rounds for m of d digits. Neighbouring Fibonacci numbers reach both bounds. modular_sqrt(a, p) for an odd prime p looks for a non-residue exactly if p is 1 modulo 4 and a is a non-zero square; it then calls legendre_symbol c times, where 1..c are squares, c+1 is not, and c*(c+1) < p; the inner loop squares at most e*(e+1)/2 times, where 2^e is the highest power of 2 in p-1. The search loop of factorization(n) runs at most once or r times with (1227+2*r)^2 <= n; for the product of primes 1229 < p <= q < (p+2)^2 that is_prime does not take for a prime it runs exactly (p-1227)/2 times.", "quantifier": "all integers a, b; all m > 0; all odd primes p; all n; all primes p, q as stated; all float logarithms", "why_tests_cant": "Running times are worst cases over infinitely many arguments; slow arguments are rare and their position is known only by proof.", "anchors": ["ecc/numbertheory.py:gcd2", "ecc/numbertheory.py:inverse_mod", "ecc/numbertheory.py:modular_sqrt", "ecc/numbertheory.py:factorization"]}
{"id": "C178", "title": "Which calls of the primitives the functions make, and how many", "statement": "aes_cmac(key, M) calls the block cipher only with this key, once for the subkeys and once for each of the max(1, ceil(len(M)/16)) blocks. siv_encrypt makes 2 + sum over the headers of the calls of CMAC + the calls of CMAC for the plaintext, all with the first half of the key, and then ceil(n/16) calls with the second half; siv_decrypt makes the same numbers in the other order, whether it accepts or rejects, so that the number of calls depends on lengths only. pbkdf2 calls the keyed hash, for each of the ceil(keySize/d) blocks, twice with the salt and block number and then with each result but the last: max(iterations, 1) + 1 calls for each block, one more than RFC 2898 needs; dot11PassPhraseToPSK makes 8194 calls. PRF for n octets makes n/d + 1 calls, one more than needed if d divides n, and 256 before it raises ValueError for longer ones.", "quantifier": "all ciphers with 16 octet blocks, all keys without a short subkey in use, all headers, plaintexts and ciphertexts up to 2^63 blocks; all keyed hashes with digests of d > 0 octets, all passwords, salts, iteration counts and sizes in the limits", "why_tests_cant": "That the number of calls never depends on secret contents is a statement about all pairs of inputs; tests compare results and do not see calls.", "anchors": ["cipher/aes_cmac.py:aes_cmac", "cipher/aes_siv.py:siv_encrypt", "cipher/aes_siv.py:siv_decrypt", "hash/pbkdf2.py:pbkdf2", "hash/pbkdf2.py:dot11PassPhraseToPSK", "hash/prf_dot11.py:PRF"]}
{"id": "C179", "title": "What programs learn about private keys if they use points only through their operators", "statement": "A program gets P and X = x*P on a shipped Weierstrass curve of prime order n, combines points with +, -, unary minus, double and integer multiples, sees which operations raise and which points are ==, and may compute anything else. If it makes q point operations, it finds x for at most (q+3)(q+2)/2 + 1 of the n values of x, and gets a point with the x-coordinate of (x*y)*P from x*P and y*P for at most ((q+4)(q+3)/2 + 4)*n of the n*n pairs. The numbers of cases in which it accepts (x*y)*P, and accepts an unrelated point z*P, differ by a share of at most (q+5)(q+4)/n. Raising operations and the negative y-coordinates that unary minus leaves do not help. Given s+1 public keys, it finds one of the private keys, named by it, for at most ((q+s+3)(q+s+2)/2 + 1)*n^s of the n^(s+1) lists of private keys. The first bound is right up to a constant: if n <= m*m, some program with 2*m + 1 operations finds every x.", "quantifier": "all shipped prime order curves, all points P with reduced coordinates other than the identity, all programs, all numbers of operations", "why_tests_cant": "The statement is about all programs that use the point objects and counts the secrets for which they succeed; tests can only run a given program on given secrets.", "anchors": ["ecc/ellipticcurve.py:Point.__add__", "ecc/ellipticcurve.py:Point.__sub__", "ecc/ellipticcurve.py:Point.__neg__", "ecc/ellipticcurve.py:Point.__mul__", "ecc/ellipticcurve.py:Point.__cmp__", "ecc/ellipticcurve.py:Point.double"]}
{"id": "C180", "title": "With which inputs ChaCha and the AEAD functions call the block function", "statement": "A ChaCha object calls the block function once for each 64 octets or less of each text, with consecutive counters through all texts it encrypts, so the inputs depend on the lengths only. ChaCha20_AEAD.encrypt and decrypt call it with the counter 0 for the Poly1305 key and with 1, 2, ... for the text, and with nothing else. The input determines key, nonce and counter, so all encryptions of one object together use no input twice as long as no iv is given twice; with the same iv, the calls of the shorter text are all repeated by the longer one. The inputs are 32-bit words exactly for texts below 2^32 blocks.", "quantifier": "all 32-octet keys, all 12-octet nonces, all counters, all lists of texts, all associated data", "why_tests_cant": "Tests compare ciphertexts for a few nonces; that no input of the block function occurs twice is a statement about all sequences of messages, and which inputs are used is not visible in the results.", "anchors": ["cipher/chacha_poly.py:ChaCha.encrypt", "cipher/chacha_poly.py:poly1305_key_gen", "cipher/chacha_poly.py:ChaCha20_AEAD.encrypt", "cipher/chacha_poly.py:ChaCha20_AEAD.decrypt"]}
{"id": "C181", "title": "Every string of 16 octets is a Poly1305 tag, unless the key ignores the message", "statement": "Let the first half of a 32-octet key not be zero after the bits of RFC 7539 are cleared. Then for every 16-octet string t and every message, 64 octets inserted at any block boundary can be chosen such that poly1305_mac returns t. If the half is zero after clearing, all messages have one tag, so the condition is exact. In the same way ChaCha20_AEAD.encrypt returns any given tag for any associated data and any plaintext in which 64 octets at a block boundary are chosen, so a tag does not commit its author to a message.", "quantifier": "all 32-octet keys, all messages before and after, all 16-octet tags; all 12-octet nonces, all associated data", "why_tests_cant": "There are 2^128 tags for each key and no direct way to compute such a message; tests see a few tags.", "anchors": ["cipher/chacha_poly.py:poly1305_mac", "cipher/chacha_poly.py:clamp", "cipher/chacha_poly.py:ChaCha20_AEAD.encrypt"]}
{"id": "C182", "title": "No private key is safer than the average one, and one bit of it is as hard to find as all", "statement": "On a shipped Weierstrass curve of prime order n let P be a finite point and find any procedure from points to integers. For every key y, the number of blinding values r below n for which find((y*P) + r*P) - r is y modulo n is the number of private keys that find finds directly. A procedure agree from two points to a point that computes m of the n*n shared secrets x*y*P gives, by blinding with r*P and s*P and removing the cross terms, every given shared secret for at least m of the n*n pairs (r, s). A procedure that computes x*x*P from x*P yields every shared secret with two calls. A procedure that tells from x*P whether x is odd (0 <= x < n) yields every private key with one call for each bit of n. All point operations involved succeed.", "quantifier": "all shipped Weierstrass classes of prime order, all finite points with reduced coordinates, all procedures whatsoever (not only those that use the operators), all private keys", "why_tests_cant": "The procedures are hypothetical; the statement quantifies over all functions on points and all keys.", "anchors": ["ecc/ellipticcurve.py:Point.__add__", "ecc/ellipticcurve.py:Point.__mul__", "ecc/ecc.py:SmallWeierstrassCurveFp.scalar_multiple"]}
{"id": "C183", "title": "The rounds of ChaCha are a permutation that commutes with turning the columns, and the constants keep that symmetry out of the key stream", "statement": "Any number of calls of inner_block is a permutation of the states of sixteen 32-bit words. Turning the four columns of a state by one turns the result of the rounds by one, and chacha20_block of the turned state is made of the same sixteen words in turned order; a state of four equal columns gives a block of four equal columns. No two ChaCha objects, whatever their keys, counters and nonces, have states that are turns of each other by one, two or three columns, and no object has a state equal to its own turn.", "quantifier": "all states of 16 words, all numbers of double rounds, all keys, counters and nonces the constructor accepts", "why_tests_cant": "Tests check a few blocks against vectors; that no two different states give the same result of the rounds, and that no pair of objects is related by the symmetry, are statements about all 2^512 states and all pairs of keys, counters and nonces.", "anchors": ["cipher/chacha_poly.py:inner_block", "cipher/chacha_poly.py:quarter_round", "cipher/chacha_poly.py:ChaCha.chacha20_block", "cipher/chacha_poly.py:ChaCha.initialize"]}
{"id": "C184", "title": "One ChaCha20-Poly1305 ciphertext and tag can be valid for two keys at once", "statement": "Take two 32-octet Poly1305 keys whose first halves, after the bits of RFC 7539 section 2.5 are cleared, differ from each other and from zero. Whatever stands before them at a block boundary and behind them, 1536 octets can be chosen such that the message gets any given tag under the first key and any given tag under the second. The condition is exact: all pairs of tags occur if and only if it holds. For ChaCha20_AEAD: for two objects with any keys, nonces and associated data whose one-time keys meet the condition, any beginning and end of a ciphertext can be completed to one ciphertext which both objects return with the same tag, each for a plaintext of its own, and which decrypt turns into the one plaintext for one object and into the other for the other. So a ciphertext that a recipient accepts does not tell which key or which plaintext the sender had in mind.", "quantifier": "all pairs of keys, nonces, associated data, beginnings and ends of the ciphertext, and tags", "why_tests_cant": "Tests encrypt under one key; that a message with two given tags exists for every pair of keys is a statement about 2^12288 candidates, found by no search, and the condition on the keys is met by nearly all of 2^512 pairs.", "anchors": ["cipher/chacha_poly.py:poly1305_mac", "cipher/chacha_poly.py:ChaCha20_AEAD.encrypt", "cipher/chacha_poly.py:ChaCha20_AEAD.decrypt"]}
{"id": "C185", "title": "The frame of chacha20_block around the rounds hides the key as long as the rounds behave like a random permutation", "statement": "chacha20_block puts key, counter and nonce into a state, applies the rounds, adds the state and writes the words out. Put a random permutation of the states in the place of the rounds. Somebody who asks p times for the permutation of a state or for the state before the permutation, who asks for b blocks under an unknown random 32-octet key with nonces and counters of their choice, each question depending on earlier answers, and who is told the key when the questions are over, sees the same as with blocks from a random function that has nothing to do with the key, but with chance at most 2pb/2^256 + b(b-1)/2^513. So they cannot tell the blocks from random strings, and they name the key with chance at most (2pb+1)/2^256 + b(b-1)/2^513. With the rounds of the code in that place, the frame is chacha20_block itself. The bound can not be much smaller: for one block and any p there is a strategy, the trial of p keys, for which the difference is p/2^256 (1 - 1/2^512).", "quantifier": "all strategies with p questions for the rounds and b questions for blocks; over all 2^256 keys and all permutations of the 2^512 states", "why_tests_cant": "The claim is about a share of all keys and all permutations, for every strategy; that the addition of the input state, the constants and the place of key, nonce and counter are what hides the key shows in no output.", "anchors": ["cipher/chacha_poly.py:ChaCha.chacha20_block", "cipher/chacha_poly.py:ChaCha.__init__"]}
{"id": "C186", "title": "ChaCha20_AEAD is authenticated encryption as long as the rounds of ChaCha behave like a random permutation", "statement": "Put a random permutation in the place of the rounds of chacha20_block and take a random 32-octet key. Somebody asks for encryptions under nonces that are never used twice, v times for the opening of a ciphertext, and p times for the permutation of a state or for the state before it, each question depending on earlier answers. Let b be the number of blocks of ChaCha20 that the encryptions and openings need, and let the inputs of Poly1305 have at most q blocks. The chance of any result differs by at most 8qv/2^106 + 2pb/2^256 + b(b-1)/2^513 from the chance when each encryption is a fresh random string with a random tag and the recipient accepts exactly what an earlier encryption returned. The recipient accepts something else at most with that chance.", "quantifier": "all strategies within p, v, b and q; over all 2^256 keys and all permutations of the 2^512 states", "why_tests_cant": "Tests see single ciphertexts and single changed tags; the claim bounds the share of keys and permutations for which any strategy, however long it computes, succeeds.", "anchors": ["cipher/chacha_poly.py:ChaCha20_AEAD.encrypt", "cipher/chacha_poly.py:ChaCha20_AEAD.decrypt", "cipher/chacha_poly.py:ChaCha.chacha20_block", "cipher/chacha_poly.py:poly1305_mac"]}
{"id": "C187", "title": "Attacking many ChaCha20 keys at once gains next to nothing as long as the rounds behave like a random permutation", "statement": "Let u owners have independent random 32-octet keys, and put a random permutation of the states in the place of the rounds of chacha20_block. Somebody asks p times for the permutation of a state or for the state before it, asks for b blocks in all, each under the key of an owner of their choice and with nonce and counter of their choice, each question depending on earlier answers, and is told all keys when the questions are over. They see the same as with blocks from random functions, one for each owner, that have nothing to do with the keys or with each other, but with chance at most 2pb/2^256 + b(b-1)/2^513 + u(u-1)/2^257. So the blocks of the owners can not be told from random strings or linked, and the chance to name a string that is the key of any owner is at most (2pb+u)/2^256 + b(b-1)/2^513 + u(u-1)/2^257. The only thing that grows with the number of owners is the chance that two have the same key.", "quantifier": "all numbers of owners and all strategies with p questions for the rounds and b questions for blocks; over all lists of u keys and all permutations of the 2^512 states", "why_tests_cant": "The claim is about a share of all lists of keys and all permutations, for every strategy; no test can attack even one key.", "anchors": ["cipher/chacha_poly.py:ChaCha.chacha20_block", "cipher/chacha_poly.py:ChaCha.__init__"]}
{"id": "C188", "title": "ChaCha20_AEAD with many keys is as strong as with one, as long as the blocks are random", "statement": "Let any number of owners each have a ChaCha20_AEAD object, and put a random function of the owner's own in place of chacha20_block. Somebody asks owners of their choice for encryptions, never twice under a nonce of the same owner (different owners may use the same nonce), and asks v times in all for the opening of a ciphertext, each question depending on all earlier answers; inputs of Poly1305 have at most q blocks. The chance of any result differs by at most 8qv/2^106 from the chance when each encryption is a fresh random string with a random tag and each owner accepts exactly what an earlier encryption of their own returned; the number of owners is not in the bound. Some owner accepts something that they did not make themselves, such as a ciphertext of another owner, at most with that chance.", "quantifier": "all numbers of owners; all strategies within v and q; over all choices of one function per owner from counters and nonces to 64-octet strings", "why_tests_cant": "Tests use one or two keys; the claim is that even a strategy that spreads its attempts over arbitrarily many owners, and carries ciphertexts from one to another, gains nothing.", "anchors": ["cipher/chacha_poly.py:ChaCha20_AEAD.encrypt", "cipher/chacha_poly.py:ChaCha20_AEAD.decrypt", "cipher/chacha_poly.py:poly1305_mac", "cipher/chacha_poly.py:poly1305_key_gen"]}
{"id": "C189", "title": "ChaCha20_AEAD is authenticated encryption for many random keys at once as long as the rounds of ChaCha behave like a random permutation", "statement": "Put a random permutation in the place of the rounds of chacha20_block and let u owners have independent random 32-octet keys. Somebody asks owners of their choice for encryptions, never twice under a nonce of the same owner, v times in all for the opening of a ciphertext, and p times for the permutation of a state or for the state before it. Let b be the number of blocks of ChaCha20 that all encryptions and openings need, and let the inputs of Poly1305 have at most q blocks. The chance of any result differs by at most 8qv/2^106 + 2pb/2^256 + b(b-1)/2^513 + u(u-1)/2^257 from the chance when each encryption is a fresh random string with a random tag and each owner accepts exactly what an earlier encryption of their own returned. Some owner accepts something else at most with that chance.", "quantifier": "all numbers u of owners and all strategies within p, v, b and q; over all lists of u keys and all permutations of the 2^512 states", "why_tests_cant": "The claim bounds the share of keys and permutations for which any strategy against many users, however long it computes, succeeds; a test sees single keys and the one fixed permutation.", "anchors": ["cipher/chacha_poly.py:ChaCha20_AEAD.encrypt", "cipher/chacha_poly.py:ChaCha20_AEAD.decrypt", "cipher/chacha_poly.py:ChaCha.chacha20_block", "cipher/chacha_poly.py:poly1305_mac"]}
{"id": "C190", "title": "With a random salt, work done on pbkdf2 in advance is of almost no use; with a known salt it replaces all later work", "statement": "Put random functions in place of the pseudorandom function under each password. Somebody asks for q1 of their values. Then a password is taken at random from a dictionary and a salt at random from a set of salts, and they get the salt and the key that pbkdf2 derives with c iterations, and may ask for q2 more values. They can tell the key from a random string with an advantage of at most q2/(c |dictionary|) + q1/(|salts| |dictionary|) plus a term of the order of the number of iterations times q1+q2 over 256^d, and name the password with a chance of at most (q2/c + q1/|salts| + 1)/|dictionary| plus the same term. If the salt is known in advance, as a network name is for dot11PassPhraseToPSK, c questions in advance per password make a table in which the password of every key is found without another question.", "quantifier": "all dictionaries of passwords of up to 63 octets, all sets of salts, iteration counts and key sizes up to 10000 octets, all adaptive strategies with q1 questions in advance and q2 afterwards, counted over all tables of functions, passwords and salts", "why_tests_cant": "The claim counts over all functions and is about every way to use questions asked before the salt is known; tests compare single derived keys.", "anchors": ["hash/pbkdf2.py:16-35", "hash/pbkdf2.py:37-42"]}
{"id": "C191", "title": "After 2^65 tags a tag of AES-CMAC can always be forged, and with fewer tags as often as the bounds allow up to a constant factor", "statement": "Somebody asks aes_cmac(key, M) for the tags of 2*q messages of two blocks: q with first block 1 and the second block running through the numbers below q, and q with first block 2 and the second block running through the multiples of 2^64. If two of different kinds have the same tag, they ask for the tag of the first with a zero octet appended and claim it for the second with a zero octet appended, a message they have not asked about. This takes 2*q+1 tags and 4*q+6 blocks in all. For every key for which aes_cmac raises no exception and every block cipher that maps different blocks to different blocks the claim is right exactly if the difference of the ciphertexts of the blocks 1 and 2 is one of q^2 values. So with q = 2^64 it is always right, for AES itself and every such key; and for q up to 2^64 it is right for exactly q^2-1 in 2^128-1 of the permutations in place of AES that raise no exception, and for at least 127/128 of this share of all permutations. The bound of C166 for this number of blocks is at most 141 times q^2-1 in 2^128 (q at least 2), so it can not be improved by more than a constant factor.", "quantifier": "All keys and all block ciphers that are injective under the key; all q; all permutations of the 16-octet blocks", "why_tests_cant": "2^65 tags can not be computed, and the share is one of all permutations of 2^128 blocks.", "anchors": ["cipher/aes_cmac.py:19-64"]}
{"id": "C192", "title": "After 2^65 encryptions a ciphertext of AES-SIV can always be forged, and with fewer as often as the bounds allow up to a constant factor", "statement": "Somebody encrypts the empty plaintext with siv_encrypt 2*q times, each time with one header of two blocks, the messages of C191. If headers of the two kinds give the same ciphertext, they encrypt one zero octet with the first header and give the result to siv_decrypt with the second header, with which it was not encrypted. This takes 2*q+1 encryptions, one decryption and 6*q+6 blocks in all. For every key whose first half lets aes_cmac raise no exception, and every block cipher that maps different blocks to different blocks under that half, siv_decrypt accepts a ciphertext that siv_encrypt has not returned for its headers exactly if the difference of the ciphertexts of the blocks 1 and 2 under that half is one of q^2 values. So with q = 2^64 this always happens, for AES itself and every such key; and for q up to 2^64 it happens for exactly q^2-1 in 2^128-1 of the permutations in place of AES under the first half that raise no exception, and for at least 127/128 of this share of all permutations. The bound of C166 for this number of blocks is at most 305 times q^2-1 in 2^128 (q at least 2), so it can not be improved by more than a constant factor.", "quantifier": "All keys and all block ciphers that are injective under the first half of the key; all q; all permutations of the 16-octet blocks", "why_tests_cant": "2^65 encryptions can not be computed, and the share is one of all permutations of 2^128 blocks.", "anchors": ["cipher/aes_siv.py:42-97", "cipher/aes_cmac.py:19-64"]}
{"id": "C193", "title": "Keys that pbkdf2 derives from one password with different salts tell no more about the password than one key", "statement": "Put random functions in place of the pseudorandom function under each password. A password is taken at random from a dictionary, and somebody gets the keys that pbkdf2 derives from it with c iterations and each of u different salts, for instance because the password is used in u places. They may then ask for q values of the functions. They can tell the keys from u independent random strings with an advantage of at most q/(c |dictionary|) plus a term of the order of u times the number of iterations times q over 256^d, and name the password with a chance of at most (q/c + 1)/|dictionary| plus the same term. Apart from the small term that is what C173 says about a single key. For the pre-shared keys of up to 2^40 networks of 802.11 with different names and the same pass phrase it is one pass phrase for every 4096 questions, up to one in 2^46, as long as questions times networks are at most 2^100.", "quantifier": "all dictionaries of passwords of up to 63 octets, all lists of different salts, iteration counts and key sizes up to 10000 octets, all adaptive strategies with q questions, counted over all tables of functions and all passwords", "why_tests_cant": "The claim counts over all functions and all ways to combine several keys; a test derives single keys.", "anchors": ["hash/pbkdf2.py:16-35", "hash/pbkdf2.py:37-42"]}
{"id": "C194", "title": "With different salts, attacking the pbkdf2 keys of many users at once finds no password sooner; with one salt it finds them all for the price of one", "statement": "Put random functions in place of the pseudorandom function under each password. Each of u users takes a password at random from a dictionary, and somebody gets the keys that pbkdf2 derives from them with c iterations and different salts. They may then ask for q values of the functions. They can tell the keys from independent random strings with an advantage of at most q/(c |dictionary|) plus a term of the order of u times the square of the number M of all iterations, plus M times q, over 256^d. They name a user and this user's password with a chance of at most (q/c + 1)/|dictionary| plus the same term, however many users there are to choose from. For the pre-shared keys of up to 2^30 networks of 802.11 with different names that is one pass phrase for every 4096 questions, up to one in 2^40, as long as questions times networks are at most 2^100. If every user takes a salt at random from a set of salts, this chance grows by at most u(u-1)/2 over the number of salts. If all users have the same salt, c questions for each password of a list find a password for every user at once.", "quantifier": "all numbers of users, dictionaries of passwords of up to 63 octets, different salts, iteration counts and key sizes up to 10000 octets, all adaptive strategies with q questions, counted over all tables of functions and all choices of passwords", "why_tests_cant": "The claim counts over all functions and all choices of passwords and bounds every strategy against all users at once; a test derives single keys.", "anchors": ["hash/pbkdf2.py:16-35", "hash/pbkdf2.py:37-42"]}
{"id": "C195", "title": "The forgery bound of Poly1305 is exact up to the factor 8", "statement": "For any q keys of 32 octets there are two different messages of at most 16*q octets that poly1305_mac gives the same tag under each of the keys. For every q from 1 to 2^106 there are two different messages of at most 16*q octets such that, whichever tag the first one has, between q*2^22 and 8*q*2^22 of the 2^128 keys that give it this tag give the second message the same tag: presenting the second message with the tag of the first succeeds with a chance between q/2^106 and 8*q/2^106. Of the 2^(128*(q+1)) messages of q+1 blocks at most 2^(128*q) have no partner of the same length with which they share each tag for at least q*2^22 keys, so this goes for almost every message. For any q AEAD objects, nonces and associated data there are two different ciphertexts of at most 16*q octets which encrypt returns with one and the same tag under each of the objects, for two plaintexts of its own.", "quantifier": "All q from 1 on (up to 2^106 for the count), all keys, objects, nonces and associated data, all tags of 16 octets.", "why_tests_cant": "The messages exist by a counting argument and have no short description; their chance of success is far below what can be sampled.", "anchors": ["cipher/chacha_poly.py:poly1305_mac", "cipher/chacha_poly.py:ChaCha20_AEAD.encrypt"]}
{"id": "C196", "title": "One SIV ciphertext rules out plaintexts, and a long one can be told from random octets as often as the bounds allow up to a constant factor", "statement": "In one result of siv_encrypt no two whole blocks are encrypted alike: the exclusive or of ciphertext block and plaintext block differs from block to block. For every string of n whole blocks, n at most 2^64, the share of the strings of the same length that can not be its plaintext for this reason is between n*(n-1)/2^130 and n*(n-1)/2^129, so with AES a ciphertext of n blocks rules out at least that share of plaintexts for somebody who does not know the key, the headers or the synthetic IV. The ciphertext of zeros has no two equal blocks, whatever the key and the headers, while of the random strings of n blocks a share between n*(n-1)/2^130 and n*(n-1)/2^129 has: the bound 4*(c+1)^2/2^128 of C166 for what SIV ciphertexts of c blocks give away can not be improved by more than a constant factor.", "quantifier": "All keys, header lists, plaintexts and ciphertexts; all numbers of blocks up to 2^64.", "why_tests_cant": "The statement counts strings out of 2^(128*n); the effect shows only with ciphertexts far longer than any test.", "anchors": ["cipher/aes_siv.py:siv_encrypt"]}
{"id": "C197", "title": "The forgery bound of ChaCha20_AEAD is reached up to a constant factor by one encryption and forged ciphertexts with its tag", "statement": "Put a random function in place of the ChaCha block function. Somebody asks encrypt of a ChaCha20_AEAD object for one ciphertext of 16*(q+1) zero octets and presents v other ciphertexts, of this length and with the same nonce, with the tag they got to a recipient that calls decrypt, then encrypt on the plaintext, and accepts if ciphertext and tag come out as received (the class itself checks no tag). For a suitable choice of the other ciphertexts, which depends only on the ciphertext they got, the recipient accepts one of them for a share of at least q*v/2^106 of the functions, less v parts in 2^128 of this. For this number of blocks the bound of C168 is 8*(q+2)*v/2^106, so it can not be improved by more than a constant factor, neither for long texts nor for many attempts: with a ciphertext of 16 megabytes one attempt succeeds with a chance of about 1 in 2^86, and not 1 in 2^128 as the length of the tag might suggest.", "quantifier": "All objects with a key of 32 octets, all nonces of 12 octets, all q up to 2^34-5 and v with q*v at most 2^106, all outcomes of the random source; counted over all functions from block inputs to blocks.", "why_tests_cant": "The forged ciphertext exists by a counting argument, and the share of functions is far below what can be sampled.", "anchors": ["cipher/chacha_poly.py:ChaCha20_AEAD.encrypt", "cipher/chacha_poly.py:ChaCha20_AEAD.decrypt", "cipher/chacha_poly.py:poly1305_mac"]}
{"id": "C198", "title": "Trying keys of HMAC costs two hash values per message and key and does as well as the bound allows up to a small factor", "statement": "Take a random hash function with digests of d octets and a random key of k octets, k at most the block size. Somebody asks an HMAC object with this key for the tags of w different messages, computes them from hash values with each of g keys they have chosen, which takes 2*w*g hash values, and says whether one of the keys gives all the tags. With HMAC the answer is yes with a probability of at least g/256^k; with an independent random function in place of HMAC it is yes with a probability of at most g/256^(d*w). The bound of C170 for the same numbers of questions is 4*w*g/256^k + w*(w-1)/2/256^d, so for keys shorter than w digests it can not be improved by more than a factor of about 4*w, which is 4 for keys shorter than a digest.", "quantifier": "all block sizes, key sizes up to the block size, digest sizes, sets of keys and lists of different messages, counted over all tables in place of the hash function and all keys", "why_tests_cant": "The claim counts over all functions and keys; a test computes single tags.", "anchors": ["hash/hmac.py:HMAC.setKey", "hash/hmac.py:HMAC.digest", "hash/hmac.py:HMAC.reset"]}
