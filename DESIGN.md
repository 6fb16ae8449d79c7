# Formal model of nymble/cryptopy

The code in `/repo` is Python 2 (print statements, `0L` literals, integer `/`,
`raise 'string'`, implicit relative imports).  It is read as text only; nothing
here executes it.  This directory holds a Lean 4 model of the code, independent
specifications, and proofs that relate the two.

## Trusted base

* Lean's kernel.  The gate replays every constant.
* The axioms `propext`, `Quot.sound`, `Classical.choice` only.  No axiom is
  added, and there is no `sorry`, `admit`, `native_decide` or `bv_decide`.
* The reading of Python in `Verif/Py.lean`: the translation from Python source
  to Lean definitions is by hand.  Every model definition cites file and lines.
  As a test of it, `Verif/Vectors` evaluates the model on the recorded values of
  the project's own tests (SP 800-38B, RFC 5297, RFC 7539, Michael, TKIP, HMAC,
  PBKDF2, NIST and secp256k1 point arithmetic, RFC 1924).  All agree, except that
  five of the eight TKIP seeds differ in their first three octets, which is a
  deviation of the code itself (C98).
* The external components listed under "Not modelled".

## How Python is represented

* Octet strings are `List UInt8`.  `chr(ord(a)^ord(b))` of two octets is
  `a ^^^ b`; `chr(n)` of a computed integer is a fallible function that gives
  `ValueError` for n outside 0..255.
* Python integers are `Int`, or `Nat` where the value is a size or a machine
  word that can not be negative (`&`, `^`, `|`, `<<`, `>>` on naturals are exact).
  Floor division and modulo are `Int.fdiv` and `Int.fmod`.
* A call either returns or raises: `Except PyErr α`.  `PyErr` has one constructor
  per exception class that the code can raise.  `raise 'text'` is `PyErr.stringRaise`
  (on Python 2.6 and later the interpreter turns it into a TypeError; the
  constructor keeps it apart from other TypeErrors and both are exceptions).
* Slices follow Python clamping and negative index rules (`Py.slice`).
* `for` over `range` is a fold over `List.range`; `while` loops are
  well-founded recursions when they terminate for every input in the modelled
  domain, otherwise `partial_fixpoint` functions in which `none` means the loop
  never ends.
* Objects are structures; a method is a function from the state to
  the new state and the result.
* External randomness (`urandom`) is an explicit argument.
* Limits of the interpreter (memory, `sys.maxint` for the sizes of lists and
  strings, the recursion depth) are left out.  Where they change what a function
  does on arguments that a user would pass is the subject of C174; the claims
  about `jacobi`, `square_root_mod_prime`, `y_from_x`,
  `MontgomeryCurveFp.scalar_multiple` and `pbkdf2` are to be read with it.

## Layout

* `lean/Verif/Py.lean` Python primitives.
* `lean/Verif/Model/*.lean` the code, function by function.
* `lean/Verif/Spec/*.lean` specifications written from the standards, without
  use of the model.
* `lean/Verif/Lemmas/*.lean` auxiliary facts.
* `lean/Verif/Props/*.lean` the property theorems and, beside each, an example
  that shows the hypotheses can be met.
* `lean/Verif/Vectors/*.lean` the recorded values of the tests in `/repo`,
  evaluated in the model.  They test the hand translation and prove nothing.
* `properties.jsonl` the properties; `MANIFEST.json` the theorem names per
  property; `seeded/LOG.jsonl` the log of deliberately wrong models.

## Not modelled

* `Crypto.Cipher.AES` (PyCrypto): a parameter `ciph : Bytes → Option (Bytes → Bytes)`.
  Assumed: `AES.new` raises ValueError unless the key has 16, 24 or 32 octets, and
  encryption of 16 octets returns 16 octets.  Theorems hold for every such function.
  C147 puts AES of FIPS 197 (`Spec/Aes.lean`) in its place.
* `crypto.hash.hash.Hash`, `SHA1`, `MD5`, the stdlib `hmac`/`sha` modules: an
  arbitrary function from octet strings to octet strings of fixed length, with the
  base class behaviour `__call__(data) = reset; update(data); digest` recorded in the model.
* `crypto.cipher.rijndael.Sbox`: an arbitrary table of 256 octets.
* `math.log(n, 2)` in `is_prime`: an arbitrary function.
* Floats: `pbkdf2` uses `ceil(1.*a/b)` (exact for the admitted sizes) and a float
  argument of `range`; nonLinearity uses `.5*max` (exact, modelled as a rational).
* Object destruction (`Michael.__del__`), printing, module test code
  under `if __name__ == '__main__'` except that of `ecc/numbertheory.py` (C153), `cipher/encoding.py`
  (C155) and the programs in `analysis/` (C159), and everything below `*/test/` except `ecc/test/test_brainpoolseeds.py`,
  `cipher/test/example_encoding.py`, `test_basic` of `cipher/test/test_encoding.py` and the
  loop of `test_misc` of `fmath/test/test_galoisfields.py` (C155).
  `fmath/prime_test.py` is modelled (C154); the file of primes that it reads is not in
  the repository and is a parameter.
* Missing modules (`binascii_plus`, `crypto.*` absolute imports) are
  treated as present.
* Timing, memory and side channels.

## Properties

One line per property: what is modelled and how it is proved.

| id | model | proof |
|----|-------|-------|
| C01-C03 | the three `int_to_string`/`string_to_int` copies on `Int` and octet lists | digit lists: induction on the integer, `Nat.ofDigits`-style specification |
| C04-C07 | `base_N_encode`, `base_N_decode` for arbitrary alphabets, the three wrappers | digit expansion induction; alphabets by kernel evaluation |
| C08 | `xor`, `xor_min` | list induction |
| C09-C11 | `aes_cmac`, `subkey`, `pad` for arbitrary cipher | refinement to an RFC 4493 specification on block lists; GF(2^128) as polynomials over ZMod 2 |
| C12-C17 | `dbl`, `s2v`, `siv_encrypt`, `siv_decrypt` | refinement to RFC 5297, exact characterisation of acceptance |
| C18-C24 | ChaCha on naturals, object state with counter | refinement to `BitVec 32` specification; induction on blocks |
| C25-C29, C96 | Poly1305 on naturals | refinement to a polynomial over `ZMod (2^130-5)`; Pratt certificate; root counting |
| C30-C35 | the AEAD classes with explicit random source | composition of the above |
| C36-C39 | HMAC object over an arbitrary hash | state invariant over operation histories |
| C40-C44 | `pbkdf2`, `PRF` | loop induction |
| C45-C48 | Michael, TKIP MIC | refinement to `BitVec 32`, explicit inverses |
| C97 | `import hmac` in `prf_dot11.py` resolved to the sibling module (Python 2 implicit relative import) | unfolding of the loop |
| C49-C53, C98 | TKIP mixer object, phase 1 and 2 | state invariant over histories; refinement to `BitVec 16`; explicit inverses |
| C54, C55 | `inverse_mod`, `gcd*`, `lcm*` on `Int` | loop invariant of the extended Euclid loop; folds |
| C56, C59 | `jacobi`, `legendre_symbol` | well-founded induction against Mathlib `jacobiSym` (reciprocity), Euler's criterion |
| C57 | `square_root_mod_prime` with the polynomial helpers | the three congruence classes of p; Cipolla in `AdjoinRoot` |
| C58 | `modular_sqrt` (loops as `partial_fixpoint`) | Tonelli-Shanks invariant on orders of 2-power elements |
| C60-C62 | `factorization`, `phi`, `carmichael` | invariant "what is left has no factor below d"; `Nat.totient`, unit group exponent |
| C63, C64 | `order_mod`, `largest_factor_relatively_prime`, `kinda_order_mod` | partial correctness plus a terminating run; `orderOf` in `ZMod m` |
| C65-C67 | `is_prime`, `next_prime`, with an arbitrary float logarithm | field argument for primes; explicit Arnault number, evaluated in the kernel; the verdict in both directions as a condition on the rounds (C65_strong_probable_prime) |
| C68 | `polynomial_*_mod` | `Polynomial (ZMod p)` divisibility |
| C69, C70 | `rabin_miller`, `fermat_little_test` | Fermat; shared factor argument; Korselt's criterion |
| C71-C73 | `GFp`, its elements and their operators (`Model/GaloisField.lean`): value, field object identity, type of the right operand | each operator is matched with the operation of `ZMod p`; error paths by evaluation |
| C74, C75 | `add_points`, `double_point`, `negate` of `SmallWeierstrassCurveFp` | a point object represents an element of Mathlib's `WeierstrassCurve.Affine.Point` over `ZMod p` (`Spec/Ecc.lean`); each branch of the code is matched with a case of the group law; associativity and commutativity of the code follow from the group and uniqueness of reduced coordinates |
| C76, C77 | `scalar_multiple`, `leftmost_bit`, `__mul__` | invariant of the signed-digit loop: before bit `i` the result is `(3e/i' - e/i') / 2`-fold (see `partialScalar` in `Lemmas/Ecc.lean`), no intermediate doubling hits order two since n is odd |
| C78 | `point`, `on_curve` and every operator | case analysis; the closure theorem needs no assumption on the parameters |
| C79 | error paths | `inverse_mod` of 0 is an `AssertionError` |
| C80 | `Point.__cmp__` | direct, with C75 and C76 for the -P example |
| C81 | `EllipticCurveFp.__init__`, `identity` of Montgomery and Edwards curves | evaluation of the implemented equation at (0, -1) |
| C83 | `y_from_x` | from C57 |
| C84 | `new_private_key`; `urandom` is a parameter | positional notation in base 256 |
| C85 | `coord_size` loop | induction on p |
| C82 | `montgomery_ladder`, `cswap` | `(X : Z)` represents the x-coordinate of a group element of Mathlib's curve (`Lemmas/XOnly.lean`); doubling and differential addition formulas are proved for every case, then an invariant of the loop; the case x1 = 0 has its own invariant. The class can not be instantiated as shipped (C81); the theorem is about the method |
| C86, C99 | `encode`, `toOctets`, `to_octetstring`, `from_octetstring`; `montgomery_ladder2`, `MontgomeryCurveFp.negate`, Edwards `scalar_multiple` | the global names of the two modules and the methods of the class are tables read off the source; reading a name outside the table is a NameError / AttributeError |
| C87 | `mapOrbits`, `orbitStartAndLength` (`Model/Analysis.lean`), key order a parameter | invariant of the outer loop: touched = points on cycles with a least element already seen; cycles as `Function.minimalPeriod` orbits |
| C88 | `walshTransform` (`Model/Analysis.lean`) | characters of bit strings (`Lemmas/Walsh.lean`); orthogonality by a sign-reversing involution; inversion and Parseval from it |
| C89 | `nonLinearity` (results are halves, modelled in the rationals) | transform = `2^n - 2*distance`; every affine function has a mask; Parseval for the bound |
| C90, C91 | `log2n`, `binaryInnerProduct` | induction on the shifts |
| C92 | `pi` (`Model/Pi.lean`, the 1000 rows of digits in `Model/PiDigits.lean`) | Machin formula of Mathlib, alternating series bounds, series summed by binary splitting (`Lemmas/Machin.lean`); one integer comparison evaluated by the kernel gives all 50000 digits |
| C93 | `primesTo5k`, `smallprimes` | trial division proved correct, evaluated by the kernel over the whole range |
| C94 | `sboxNonlinearity`, four tables (`Model/Sboxes.lean`) | general theorem from C89; the tables by a fast transform for all masks at once (`Lemmas/PackedWalsh.lean`), proved equal to the distances and evaluated by the kernel |
| C95 | the numbers of the 37 Weierstrass classes (`Model/Curves.lean`) | elliptic curve primality proving formalised in `Lemmas/Ecpp.lean` (Goldwasser-Kilian criterion with the elementary bound l - 1 <= 2q in place of Hasse; projective x-only ladder evaluated by the kernel); certificate chains for every n in `Lemmas/CurveCert*.lean`; p follows from the generator itself as the witness; the number of points from the elementary bound 2p + 1 and the absence of 2-torsion, X^p - X invertible modulo the cubic (`Lemmas/Count.lean`) |
| C100 | `scalar_multiple` for arbitrary orders | the loop raises at the first partial multiple of order one or two (`Lemmas/Scalar.lean`) |
| C102 | `rabin_miller` counted over the bases (`Lemmas/StrongLiars.lean`) | the passing bases are the strong liars (exact criterion C69_strong_probable_prime); they fall into a subgroup, and three (or one, in the prime power and two-prime cases) disjoint translates consist of witnesses |
| C103 | `fermat_little_test` counted over the bases | Korselt's criterion through the unit group; proper subgroup for the half bound |
| C104 | `montgomery_ladder` applied twice | the ladder theorem of C82 over any field of characteristic p (`montgomeryLadder_over`), used over the algebraic closure, where every x belongs to a point |
| C105 | `montgomery_ladder` on unreduced integers (`Lemmas/Growth.lean`) | each iteration squares the powers of x that divide the pairs, and the pairs never vanish (they represent points over the algebraic closure of the rationals). C82 and C104 are about the mathematical value of the loop; C105 shows that no machine can finish it for x other than 0, 1, -1 |
| C106, C107 | affine `add_points`, `double_point`, `scalar_multiple` of `MontgomeryCurveFp` (`Model/Montgomery.lean`); `IDENTITY` is a parameter because building it fails (C81) | branches matched with the group law of Mathlib's curve; recursion on the scalar as `partial_fixpoint`, partial correctness for the negative scalars |
| C108 | `TwistedEdwardsCurveFp.on_curve`, `Point.__init__`, the Edwards classes of `curves.py` (`Model/Edwards.lean`) | the implemented polynomial as an equation over ZMod p; on the true curve it differs from 0 by y(y-1); the generators by evaluation in the kernel; Ed25519 as a product of four linear factors |
| C109 | `add_points`, `double_point`, `negate` of Edwards curves | `Spec/Edwards.lean` builds the group of a complete Edwards curve from scratch: completeness (no zero denominator), closure, associativity by polynomial identities; the model computes the coordinates of the sum and C108 decides whether they are accepted |
| C110 | `E382`, `Curve3617`, `E521`, `GOSTmsg05975te`, `Curve25519`, `M383`, `M511` | primality by chains of elliptic curve certificates checked in the kernel (`Lemmas/EdwardsCert1.lean`, `EdwardsCert2.lean`); orders by projective double-and-add, sound and complete; number of points: a point of order n and one of order h give h*n as a divisor, and 2p (Edwards) or 2p+1 (Montgomery) as an upper bound; a further factor 2 or 3 is excluded by a non-square or by size |
| C111 | `MCurve.montgomeryLadder`, `Spec/Rfc7748.lean` | the RFC text transcribed with its deferred swaps and `a24`; simulation: after each bit the two states agree up to a non-zero factor per projective pair, the final Fermat inverse removes it; the transcription is checked on the RFC 7748 test vector |
| C112 | `MCurve.montgomeryLadder`, `Spec/Rfc7748.lean` | points over the algebraic closure: (0,0) has order 2, coordinates 1 and -1 double to (0,0); clamped scalars are multiples of 8, and for Curve25519 (8n points, n prime) a multiple 8m with 2^251 <= m < 2^252 < n kills P iff 8 does |
| C113 | `WPoint.neg`, `WPoint.mul`, `WPoint.double`, `WPoint.add` | the check of -Q fails since (-y)^2 = y^2; 2Q lies on the curve with another b; a chord through P meets the check of the result only above the x of P (an identity between the two values of the cubic); points made with `validate=False` are plain values of the model |
| C114 | `MCurve.montgomeryLadder`, `Spec/Rfc7748.lean` | points over the algebraic closure with x in GF(p) form the kernels of Frobenius - 1 and Frobenius + 1; together 2p+2 points by counting square roots, so the twist has 4n' points, n' prime by a certificate; a clamped scalar then kills a point iff 8 does, and the x with 8P = 0 come from factoring the doubling polynomials, with three non-residues checked by Euler's criterion in the kernel (`Lemmas/Twist.lean`) |
| C115 | `Hmac.new`, `Hmac.run`, `pbkdf2`, `dot11PassPhraseToPSK`; `stripZeros` is the specification (Mathlib's `rdropWhile`) | a key splits into its stripped part and zeros, so zero padded keys agree iff the stripped ones do; XOR with a constant is injective; two equal MACs of different keys exhibit the outer inputs as a collision. Collision statements take a fixed digest length |
| C116 | `prfDot11`, `prf128` to `prf768` | the loop sees only `A 0 B i`; induction on the label up to its zero octet; the wrappers by C43 |
| C117 | `aesCmac`; the hypothesis is injectivity of the cipher under the key | RFC 4493 chaining is injective in the chaining value; the tag of whole blocks and the chaining value determine each other; `10*` padding is injective. Stated for calls that return (C09 says when they raise) |
| C118 | `WClass` values of `ecc/curves.py` | the points form a group of prime order n (C95); n, p coprime and n not dividing p^k - 1 for k ≤ 1000 by kernel evaluation, so every homomorphism to the additive group of GF(p) or to the units of a field with p^k elements is trivial. The bound 1000 on the degree is part of the claim (larger fields are of no use to an attacker), not a sample |
| C119 | `brainpoolTwists` (the attribute `z`), `WPoint.mul`, `WPoint.add`; `rescale` is the specification | (x, y) -> (u²x, u³y) is a homomorphism between short Weierstrass curves (`Lemmas/ScaleCurve.lean`); with C95 and uniqueness of reduced representatives the library's results correspond. The inverse map gives the bijection |
| C120 | `nonLinearity`, `sboxNonlinearity` as in C89 and C94 | affine functions form a group under exclusive or; a function that respects exclusive or is a linear function of the bits; the distance of `T·r(y)` to `S·y` is that of `S·s(x)` to `T·x`, and non-zero masks of a permutation are balanced (`Props/NonLinear.lean`) |
| C121 | `TKIP_Mixer` as in C49-C53 | bijectivity of both phases (C51, C52) composed; histories by C49; the reuse by running the four calls symbolically (`Props/TkipReuse.lean`) |
| C122 | `ChaCha20_AEAD.encrypt` as in C30 | plaintexts by C24; the candidates by the root count of C28 with the tag difference as data, the second key half cancels (`Props/NonceReuse.lean`) |
| C123 | `ChaCha20_AEAD.decrypt` as in C31 | exclusive or with the key stream commutes with exclusive or with the change |
| C124 | `poly1305_mac` as in C25 | the hash of every message is 0 for r = 0; otherwise the tags of two one-octet messages differ |
| C125 | `s2v`, `siv_encrypt`, `siv_decrypt` as modelled for C13–C17. | `Props/S2vTags.lean`: S2V through RFC 5297 (C13); doubling is linear, injective and fixes only zero (bit recursion), so a changed or exchanged header changes the chain exactly if the CMACs differ; CMAC of one changed block is injective (C117). Not claimed: rejection for plaintexts of 17 octets or more that are not whole blocks, where the masked end straddles two blocks and a collision in CMAC can occur. |
| C126 | `Model/CurveList.lean`: the module namespace as a list of names bound to classes or other values, `inspect.getmembers` as filter and sort by name (Python 2 `inspect`; names are distinct, so ties never compare values), the loop of lines 754-766 with the bindings it leaves, and `curveId`, `strength`, `oid` of all 45 classes. | `Props/CurveList.lean`: the fold of the loop equals five filters of the sorted list, for every namespace; the statements on the shipped classes quantify over all of them and are evaluated by the kernel (the domain is finite and complete). |
| C127 | `Model/Text.lean`: `%d` as sign and decimal digits (`Nat.digits`, trusted to be what Python prints), `Point.__str__` (the second definition wins) and `Element_of_GFp.__str__`. | `Props/Text.lean`: a reader of decimal numbers and of pairs is the inverse of the text form. |
| C128 | `new_private_key` on the 36 shipped curves of prime order. The strings of a given length that lead to a point are counted as a set: `stringToInt` is a bijection onto `[0, 256^size)` (C84), two scalars give the same multiple exactly when congruent modulo `n` (C95), every valid point is a multiple of the generator (C95), and Mathlib counts a residue class below a bound. The numbers for `coord_size` are evaluated per curve by the kernel. |
| C129 | `map_orbits_of_permutation` on tables with values in range. The inner loop is described for any table by induction on the iterations left (values of the iterated map, cut off), the outer loop by an invariant (every touched index is in a list). The comparison with a permutation runs both programs side by side; the cut-off can hide only the last step of a cycle that fills the rest of the range. Values outside the range are not covered. |
| C130 | `siv_encrypt` (`Model.sivEncrypt`). Octet `16 i + o` of the ciphertext is described through C17's counter blocks; equal counters give equal blocks, injectivity gives the converse. `C130_when` is about the specification `sivQ` (IV with bits 31 and 63 cleared) bit by bit: for at most 2^31 blocks the addition never carries out of the low 32 bits. The block cipher is a parameter. |
| C131 | `base_N_encode` and its three uses. The digits produced by the loop are `Nat.digits` (C04's lemma), whose length is characterised by powers; the value of `n` octets `ff` is `256^n - 1`. |
| C132 | the attributes `seed` and `seed_c` (`Model.nistSeeds`) beside the curve numbers. SHA-1 is written from FIPS 180-4 in `Spec/Sha1.lean`, together with the X9.62 expansion; a form with evaluated words (`Lemmas/Sha1.lean`) is proved equal and run by the kernel on the five seeds. Uniqueness of `b` up to sign follows from the primality of `p` (C95). |
| C133 | `brainpool_seeds` and `brainPoolRequirements` of `ecc/test/test_brainpoolseeds.py`, for natural arguments; `hex` of a long as digit values with the letters `x` and `L`. Slices of hexadecimal digits are quotients and remainders (`Nat.digits`); the 1000 digits are bounds for pi (C92), and for each of the 830 positions that can be reached the kernel checks that the truncation error does not carry. Negative arguments are not modelled. |
| C134 | `seed_p` and `seed_ab` (`Model.brainpoolSeedTable`); the generation is the inductive relation `Spec.PrimeFromSeed` and the predicate `Spec.Candidates`. All candidates before `p` are shown composite (small factor or failed Fermat test, evaluated by the kernel), `p` is prime by C95; the first seed of the 384-bit curve is skipped because a prime below 2^383 is exhibited. Digits of e from the exponential series with remainder bound. Not claimed: that earlier candidate pairs `(a, b)` fail the later conditions (that needs their numbers of points). |
| C135 | `aesSbox`, `sms4Sbox`, `streebogSbox`, `piSbox`, `orbitStartAndLength` | `Spec/Sbox8.lean` gives the published definitions over the polynomials modulo 2; the inverses are certified by `x y = m q + 1` (carry-less products shown to be polynomial products), all 256 entries of the whole domain are checked in the kernel. Finding: the table called Streebog is BelT's |
| C136 | `GOSTmsg05975te`, `GOSTmsg05975sw`, `WPoint.mul` | `Lemmas/EdwardsWeierstrass.lean`: the birational map is shown to be an isomorphism over any field (a and d eliminated from the two curve equations turn the addition formulas into identities of rational functions; the exceptional pairs differ by points of order two); counting pairs gives the size of the twist |
| C137 | `michaelOnce` (C45) | The padded message with a prefix of whole words is the prefix followed by the padded rest, and absorbing words composes; the state after the prefix is a key. Uniqueness from C46. The zero key: the block function fixes (0, 0). The exclusive-or claim reduces to the little-endian value of the exclusive or of two octet strings. |
| C138 | `MCurve.montgomeryLadder2`, `ladder2Step` with `"x_1"` among the global names | Step by step equality with `Spec.Rfc7748.step` after casting to the field; for the scalar 1 the integers of the loop are computed by induction on the number of bits: `(1, 0, 4^(2^n - 1), w)` with `w` not divisible by an odd prime that does not divide `x`. |
| C139 | `poly1305Mac`, `clamp` | The second half of the key is added modulo 2^128, which is a bijection. The keys consistent with one tag are in bijection with their first halves. The bound joins C28 (values of r for a given difference of tags) with the count of the 22 bits that `clamp` clears. |
| C140 | list objects, `Heap.reduceMod`, `Heap.multiplyMod`, `Heap.expMod` (`Model/PolyHeap.lean`) | The program is modelled over a heap of list objects with numbers. Induction over the division loop relates it to the functions on values, also when both arguments are one object, and gives what is left in the caller's list. `polynomial_multiply_mod` and `polynomial_exp_mod` follow, since they reduce only lists that they made. |
| C141 | `WPoint.mul` on `primeOrderClasses` | Points with equal x are equal or opposite; the order of the point is n. For SECP_256k1 the map (x, y) -> (beta x, y) is the rescaling homomorphism of C119 from the curve to itself; the kernel multiplies the generator by lambda once, and every point is a multiple of the generator. Equal y gives equal x^3, whose three roots differ by beta. |
| C142 | `WPoint.mulLogged` (`Model/Trace.lean`): `scalar_multiple` with a log of the calls | The digit of the loop at 2^(j+1) is the difference of the bits of 3e and e; 3(e/2^t) <= 3e/2^t <= 3(e/2^t)+2 makes neighbours of non-zero digits zero, and telescoping gives the value. Minimality: the weight w of the non-adjacent form satisfies |w(e+1) - w(e)| <= 1 by strong induction. |
| C143 | Model/Analysis.lean (nonLinearity, walshTransform, sboxNonlinearity) | Parseval's identity with equality for the list statements, autocorrelation for the translates, the inner product of the two halves of the input as the list that reaches the limit, the fourth powers of the transforms of all components for the table limit, parity of distances for invertible tables |
| C144 | Model/Arith.lean (isPrime, nextPrime, factorization, phi) | A power of a divisor of n is never 1 or -1 modulo n. Below 179^4 a composite number without factor up to 173 is p*m with p its least prime factor; some base up to 173 is a primitive root modulo p, so passing it forces m = 1 modulo p-1, and the products left (about 940000) are checked by the kernel (Lemmas/PseudoScan.lean, PseudoCheck.lean) to fail base 2, 3, 5 or 7, or to have a factor up to 173 |
| C145 | Model/Arith.lean (orderMod, carmichael, phi, factorization) | Orders divide the exponent of the unit group, the exponent divides its size and is the order of an element; -1 has order 2 for n >= 3. The composite number is that of C66 |
| C146 | `squareRootModPrime`, `modularSqrt`, `findNonResidue` (Model/Arith.lean); the unbounded search is a `partial_fixpoint` whose `none` is non-termination | the Jacobi symbol against Mathlib's `jacobiSym`; for the existence of a wrong answer the Chinese remainder unit (1, -1), or 1 + n/q when q² divides n, gives a power (n-1)/2 other than ±1; non-termination by partial correctness of the search |
| C147 | `aesCmac`, `sivEncrypt`, `sivDecrypt` (Model/Siv.lean) with the cipher of `Spec/Aes.lean`, written from FIPS 197 and checked on its appendix C.1 | `SubBytes`, `ShiftRows`, `MixColumns` and the round key additions are injective: the table has no repetition, doubling is additive and the inverse matrix undoes `MixColumns`; an injective map of a finite set is onto; then C09 and C117. For the failing keys the kernel computes one encryption and C09 does the rest for all messages |
| C148 | `Hmac` object, `prfDot11`, `prf128`, `pbkdf2`; the collisions are at named octet strings (`hmacInner`, `hmacOuter`), not merely said to exist | Cancellation of the common pad, injectivity of label, zero octet and data (C116), first block of PRF and PBKDF2 (C40, C43), x xor y = x exactly if y = 0 |
| C149 | `hmacOnce`, `dot11PassPhraseToPSK`, `prfDot11` over `sha1Module`, which is `Spec/Sha1.lean` on octet strings | C36, C37, C40, C43, C44 with the length of SHA-1 digests; the two published cases by kernel evaluation |
| C150 | Model/Arith.lean (`isPrimeCounted`, `testLoop`: the loop with the global counter) | Induction over the rounds with the criterion of C65. A composite number of the range that passes base 2 is p*m, p its least prime factor, with m = 1 modulo the order of 2 modulo p; the kernel checks the 470000 products (Lemmas/DocScan.lean). The last figure by counting residues modulo 2310 |
| C151 | Model/Encoding.lean | Positional values of equal length compare as the digit strings, by induction from the first digit; a strictly ascending alphabet keeps the order of digits; the lengths by C131 |
| C152 | Model/Siv.lean; the cipher module accepts keys of 16, 24 and 32 octets as PyCrypto's AES does | The slices key[0:len/2] and key[-(len/2):] of k1 + m + k2 are k1 and k2; every error after the two key checks is an AssertionError or the raised string |
| C153 | Model/SelfTest: the whole script; the drawn numbers are parameters, the printed text is left out except for the last two numbers | C57, C56, C60, C54, C55 and C144 applied to each part; the squares of 0..p/2 are all squares modulo p; the loops by induction |
| C154 | Model/PrimeTest: the three tests and the two lists; the numbers in the missing file are a parameter | C69 for every call; the loops by induction with the running maximum as invariant; no odd composite number below 1373653 is strong to 2 and 3 by the scan over least prime factors of C144 (Lemmas/PrimeScan); the 50000th prime by a verified sieve (Lemmas/PrimeCount) |
| C155 | Model/Scripts: the loops and the scripts; the drawn numbers and the hash function are parameters; Spec/Sha256 is SHA-256 of FIPS 180-4 | C71, C72 and C73 for one draw; C01, C03, C05, C06 and C07 for the round trips; the texts by evaluating SHA-256 in the kernel and decoding |
| C156 | Model/Arith: factorization, phi, carmichael, nextPrime, isPrime with an arbitrary logarithm | the loop over the small primes leaves the rough part (factorSmall_spec), which is the greatest rough divisor; phi of a composite is below n-1; primality of the three factors by elliptic curve certificates (Lemmas/LiarCert) |
| C157 | Model/GaloisField: xor, rxor, add, mul, rdiv; Model/FieldPower: pow, xorElem and the two readings of the docstring's expression | values in ZMod p; Fermat's little theorem (ZMod.pow_card) reduces the wrapped exponent to one factor a; cancellation in the field |
| C158 | Model/Arith: modularExp, gcd2, lcm2, inverseMod, carmichaelOfFactorized, carmichaelOfPpower; Model/GaloisField: egcd, gfInverseMod | induction along Euclid's algorithm with floor division keeps the sign of the first argument; the loop of inverse_mod ends with the same value; the Carmichael function of an lcm is the lcm of the values |
| C159 | Model/AnalysisScripts: the class, its global names and the four programs as lists of printed values | the values of C94 and C135; no component of a permutation is bent because all are balanced while a bent list has Walsh value 16 at 0 (C143), and the distances are even |
| C160 | Model/Tkip: phase2KeyMixing, mixUncached | the closed form of phase 2 (C52): octets 14 and 15 are the last word, octet 3 is that word xor the first word of the temporal key, shifted by one |
| C161 | aesCmac with the cipher module tableLib f (Props/CmacForgery.lean); strategies are the trees of Spec/Asker.lean; 'share of the functions' is Nat.card of the set of functions. That AES under a random key is as good as a random table is the usual assumption about AES and is not modelled; a permutation instead of a function changes the bounds by at most c^2 / 2^128. | Lemmas/Resample.lean counts the functions in which two chains of blocks meet, by changing the function at one point; Lemmas/PrfGame.lean builds from it a table of messages next to the run of the strategy and shows that the two agree unless chains meet; Lemmas/CmacPrf.lean instantiates it with the CMAC masks, which are different because 1 + x + x^2 has no common factor with the polynomial of the field. The exceptions are accounted for by the three classes of subkeys (K1 too small, K2 too small, none). |
| C162 | dbl of Model/Siv.lean iterated (dblTimes); gf128 of Spec/Gf128.lean. | Rabin's irreducibility test with squarings evaluated by the kernel (x^(2^128) = x, x^(2^64) - x has an inverse), in Lemmas/Gf128Field.lean; the order of x from the nine prime factors of 2^128 - 1, each with its power of x evaluated by the kernel; the cycle by counting. |
| C163 | Model/Siv.lean (s2v, sivEncrypt, sivDecrypt, aesCmac); Spec/Asker.lean (adaptive strategies); `splitLib` is a cipher module with a table under one key | Props/SivForgery.lean: the strategy is compiled to one against S2V and that to one against CMAC. Lemmas/S2vPrf.lean shows with the field of C162 that two lists of headers rarely meet in the last CMAC input, Lemmas/S2vGame.lean counts functions question by question, and Lemmas/PrfGame.lean (C161) replaces CMAC by a random function |
| C164 | Model/Siv.lean (s2v, s2vLoop, sivEncrypt, sivDecrypt) | Props/SivHeaders.lean: the difference of the two chains is multiplied by x^128+x^7+x^2+x+1, which is zero in the field of C162 |
| C165 | `Model.sivEncrypt`, `Model.sivDecrypt` and `aesCmac` with a cipher module made of two tables; strategies are trees (`Spec/Asker.lean`) | S2V is exchanged for a random function as in C163, then counter mode: each starting block with its successors is fresh unless two of the masked counters coincide (`Lemmas/CtrGame`, `SivPriv`, counted by lazy sampling); the octets of the stream make the ciphertext a bijective image of random octets. Decryptions by C163: a rejected ciphertext has exactly one exception, an accepted one was returned before |
| C166 | as C161, C163 and C165, with `Equiv.Perm (BitVec 128)` in place of all functions | switching lemma by induction on the strategy with a list of known values (`Lemmas/Switch`), and `Reads`: CMAC, S2V and the key stream use one value of the cipher for each block and two more, proved by a small calculus of how many values a computation asks for (`Lemmas/SivReads`); for two permutations one after the other |
| C167 | `Model/ChaChaBox.lean`: the functions of `Model/ChaCha.lean` with the block function as an argument (`C167_model`: the same for `ChaCha.block`); strategies are trees (`Spec/Asker.lean`), `Spec.chance` is the chance with random answers | Props/AeadSecurity.lean, Lemmas/AeadGame.lean: for any two answers a change of the blocks of one nonce turns tables with the first into tables with the second (exclusive or on the key stream, the second half of the one-time key by C139), and this is injective; so all answers are equally frequent whatever is known about other nonces; induction on the strategy |
| C168 | as C167; `Aead.openWith` is the recipient, written with `decrypt` and `encrypt` of the class | Props/AeadSecurity.lean, Lemmas/AeadForge.lean: under a new nonce the tag is one of 2^128 equally frequent ones; under a used nonce the one-time key is independent of the key stream, 2^128 keys agree with the tag seen (C139_keys) and at most 8*q*2^22 of them with the new one (C139_forgery, C33); induction on the strategy with the outcomes so far |
| C169 | `Model.pbkdf2` and `dot11PassPhraseToPSK` with a `PrfLib` that has a table under the password; strategies are trees (`Spec/Asker.lean`) | Props/KeyWork.lean, Lemmas/ChainWork.lean: the c places of the chain are different unless two collide (one value changed at a time, `card_resample`); some place has not been asked for; if it is the last one, the sum is a guess, otherwise a question hit a value nobody had asked for |
| C170 | `hmacOnce` (`Model/Hmac.lean`) with the hash function as a parameter, here a table over all strings of at most n octets. | Induction on the strategy with the list of known table entries: unless a hash question begins with one of the two padded keys or two inner digests collide, each new tag is a new table entry, which is uniform by resampling. Each hash question begins with the inner (outer) padded key for at most one key; inner digests collide with probability at most j/256^d after j of them. The ideal side is counted over two independent tables. |
| C171 | `prfDot11` (`Model/Hmac.lean`) with `hmac.new` as RFC 2104 HMAC over a table in place of SHA-1. | A strategy that asks for keys is turned into one that asks for HMAC tags, to which the game of C170 applies; with a random function in place of HMAC the blocks are at different places (C116), so the keys are exactly random strings, by induction on the strategy and the blocks. |
| C172 | `pbkdf2` and `hmacPrf` (`Model/Hmac.lean`) over a table in place of the hash function. | A strategy that asks for keys is turned into one that asks for HMAC tags (C170). With a random function in place of HMAC each chain runs into a place used before, or a place where another chain can begin, with probability at most (q+g*b)/256^d per step; otherwise its last value is new, so the sum of the chain is uniform. Induction on the strategy, the blocks and the chain. |
| C173 | `Model.pbkdf2`, `dot11PassPhraseToPSK` with a table of functions, one for each password, in place of the PRF class | `C173_dictionary`, `C173_name_password`, `C173_psk`, `C173_attack` (Props/Dictionary, Lemmas/Dictionary, Lemmas/DictionaryGame): the places of the chains are different but for a small count; who does not ask for the last place of a chain sees the blocks resampled exactly; who asks for it has asked for all `c` places of the chain or guessed one |
| C174 | Model/Limits.lean repeats the functions with a record of limits; the result is either a refusal of the interpreter or what the function returns or raises. The depth counts nested calls of the function itself only, not the calls around it, so that the real limit is a few less than sys.getrecursionlimit(). | Props/Limits.lean: two successive nested calls of jacobi on odd numbers n > a1 > a2 give n >= a1 + 2 a2, because of the parity, hence at least a doubling per call; n, 2n + a gives the deep examples. A root of the right-hand side would be a point of order two, but the group has odd prime order, so every point of the four curves meets the refused case. |
| C175 | `ChaCha.new` of C20 with `drawAndEncrypt` (nonce from the state, then `encrypt`, block function as a parameter) and `testRandomNonce` (`Model/RandomNonce.lean`). The chances are recursions over the asker in `Spec/NonceChance.lean`: a nonce is drawn at each question, against a fresh pair of random strings. Not modelled: the quality of `urandom`. | Induction over the asker with the set of nonces told so far; for a new nonce, exchanging the part of the table that it uses (`shift`, `scramble_card`) makes the ciphertext uniform; an old nonce has chance (number told)/2^96. Sharpness by the product formula for a repetition and a quadratic lower bound of the product. The count for the test is a union bound over pairs. What a repeated nonce gives away is C24. |
| C176 | The models of C09 to C17; `splitLib` (a table under the first key half) of C163. | `s2v_err` gives the exact condition for S2V; the key stream loop never raises below 2^63 blocks. The count is over the value of the table at the zero block: doubling is a bijection, both subkeys are short for 2^119 of the 2^128 values. |
| C177 | `Model/Rounds.lean`: the loops once more, each also returning the number of its rounds | the counted functions return what the plain ones return; Lamé's theorem by induction on the remainders, with signs; the least non-residue n has n(n-1) < p because (p/n+1)*n - p is smaller than n; the search loop by induction on the divisors |
| C178 | `Model/Calls.lean`: the functions once more, each with the list of the calls it makes in order; a call that constructs the cipher object is not counted | the results are those of the plain model; inductions over blocks, headers, iterations and counters; no early exit because s2v does not raise without a short subkey |
| C179 | `Model/Generic.lean`: programs whose steps name earlier points and depend on all outcomes of == and exceptions so far; the operators are those of the model of the point objects; programs that look at coordinates are not covered | the point objects behave like group elements with a mark for negative y-coordinates; the same program on linear forms in the unknown scalars has the same outcomes unless two different forms have the same value; such values are counted as zeros of linear and bilinear forms modulo n; baby steps and giant steps for the converse |
| C180 | `Model/ChaChaCalls.lean`: the functions once more, each with the list of the states with which it calls `chacha20_block` | the results are those of the plain model; induction over blocks and over texts; the sixteen words of RFC 7539 are injective in key, nonce and counter |
| C181 | `poly1305Mac` and `Aead.encrypt` of `Model/ChaCha.lean` | the values of four blocks are four sets of 2^128 residues modulo 2^130-5, and their sum is all residues by the theorem of Cauchy and Davenport because 4*2^128 - 3 is at least 2^130 - 5; the ciphertext is a bijective image of the plaintext |
| C182 | `Model/SelfReduce.lean`: the four programs that use the procedure, over the point operators of `Model/Ecc.lean` | multiples of P are the integers modulo n with the operators of the code (C77, C95); shifts modulo n are bijections; induction over the bits of the key |
| C183 | the ChaCha model of C18 and C19; `turnCols` turns the columns by one | each step of a quarter round is undone by subtraction, xor or rotation, so a double round is injective on the finite set of states; the column rounds are permuted and the diagonal rounds go to each other under the turn; the first four words of each state are the four different constants |
| C184 | the models of C25 and C30 | Cauchy-Davenport on the lines of the plane over the field of 2^130 - 5 elements: two blocks add a fixed share of the plane until 48 blocks reach more than half of it, and 48 more blocks reach the rest (`Lemmas/TwoSums.lean`); then as C181 |
| C185 | `ChaCha.blockWith`: `chacha20_block` with the rounds as a parameter; `C185_rounds` shows that the rounds of the code give `chacha20_block`. What is not proved, and is an assumption of cryptography, is that the rounds of the code behave like a random permutation | a game of questions in which the permutation is chosen when it is asked: the two sides agree until a question meets the state of a block or two blocks meet; the key is still uniform among those that meet nothing (`Lemmas/PermGame.lean`) |
| C186 | the models of C168 and C185 together; the attacker may also compute the permutation. What is not proved is that the rounds of the code behave like a random permutation | every answer is computed from at most b blocks, so a strategy for C186 becomes one for C185 (`Lemmas/RoundsAead.lean`), and C168 bounds what is left for each permutation |
| C187 | the model of C185, with a key for each owner. What is not proved is that the rounds of the code behave like a random permutation | the game of C185 for lists of keys: those with equal keys are set aside (`Model.collisions`), and the state of a block is that of one list in 2^256 (`Core.share`) |
| C188 | `ownersAnswers`: the object of each owner answers with its own random table in place of the block function (`aeadAnswers` of C167 and C168) | `Cpoly.cnt_one`: what is asked about one table is independent of what is known of the others, which lifts the counts of C168 to each step; induction over the strategy with one list of outcomes for each owner (`Spec/ChanceMany.lean`) |
| C189 | `ChaCha.blockWith` (the block function with the rounds as a parameter, C185) under the random keys of the owners | C188 and C187: an encryption or opening by an owner needs only entries of that owner's table (`Core.Needs.asOwner`), so any strategy against the AEAD is a strategy against the blocks (`Core.NeedsMany.game`) |
| C190 | `Model.pbkdf2` with `bigPrf` (random tables for the passwords, C173) | the game of C173 for the two phases as one strategy: the last value of a chain is asked for only after a lucky guess, after the start of the chain was asked for in advance (a question belongs to one password and one salt, `Dict.sum_begun`), or with all `c` places asked for afterwards (`Dict.asks_two`) |
| C191 | `aesCmac` with an arbitrary cipher module, with `tableLib` (a table in place of AES) and with `aesLib` (AES of FIPS 197) | equal tags of whole blocks extend (C117); the tag of two blocks is the cipher at the sum of the ciphertext of the first block, the second block and `K1`; the difference of two values of a random permutation is uniform on the blocks other than zero and has nothing to do with its value at zero, which decides about exceptions (`Prf.perms_count`) |
| C192 | `sivEncrypt`, `sivDecrypt` with an arbitrary cipher module, with `splitLib` (a table in place of AES under the first half of the key) and with `aesLib` (AES of FIPS 197) | two headers give the same ciphertext of a short plaintext exactly if they have the same CMAC, and then all ciphertexts of one decrypt with the other (C125); the messages collide as in C191, and the permutations are counted as there (`share_of_differences`) |
| C193 | `Model.pbkdf2`, `dot11PassPhraseToPSK` with `bigPrf` (random tables for the passwords, C173), called once for each salt | `C193_reuse`, `C193_name_password`, `C193_psk` (Props/Reuse): the game of C173 for the chains of all salts at once; different salts or block numbers give chains that begin at different places (`Reuse.chains_inj`), so all blocks of all keys are resampled together, and pieces of a random string are independent random strings (`Reuse.avg_cut`) |
| C194 | `Model.pbkdf2`, `dot11PassPhraseToPSK` with `bigPrf` (random tables for the passwords, C173), called once for each user | `C194_users`, `C194_name_password`, `C194_psk`, `C194_same_salt`, `C194_random_salts` (Props/Users, Lemmas/DictionaryUsers): the game of C173 with a password for each chain; who asks for the last place of a chain has guessed a place or asked for all `c` places of the chain, which with different salts serves one user only (`Users.done_le`), and for one user it is their password in one of |dictionary| cases (`Users.sum_one`); with one salt the table of C190 serves all users |
| C195 | poly1305Mac, Aead.encrypt | There are more strings of at most 16*q octets than lists of q tags (256^(16*q) + 1 against (256^16)^q), so two strings share the tags under q given keys. For the count the keys are chosen with q different clamped first halves; equal sums modulo 2^128 stay equal for each second half; each clamped value comes from exactly 2^22 first halves, because 2^106 of them share 2^128 and none has more (C28, C139); for each first half one second half gives the tag (C139). The upper limit is C139_forgery. Messages of q+1 blocks without a partner have lists of q tags of their own, so there are at most (256^16)^q of them (C195_most). |
| C196 | sivEncrypt with any block cipher that is injective under the second key half, and with AES of FIPS 197 | Two blocks encrypted alike would have the same counter (C130), but counters of one message differ (C17). Adding the ciphertext maps the strings of n blocks one-to-one onto the lists of n blocks, so the strings that fit are as many as lists of n different blocks; the product of 1 - i/2^128 over i < n is at least 1 - x and at most 1/(1 + x) with x = n*(n-1)/2^129, by induction. AES under a fixed key is injective (C147). |
| C197 | The game of C168 (`Forges` over `aeadAnswers`, all tables in place of the block function) and the partners of C195 for the MAC input of the AEAD without associated data | `C197_forger`: the strategy is explicit but for the v partners of the ciphertext, which C195's counting, done for v disjoint sets of q clamped values, gives for all but v in 2^128 of the ciphertexts; all answers of the encryption are equally frequent, and given the ciphertext the one-time key is uniform, so one of the partners has the same tag for at least q v 2^22 of the 2^128 keys that give the tag |
| C198 | The game of C170 (`hmacAnswers` of the HMAC model over a table in place of the hash function, `twoAnswers` for independent tables) | `C198_search`: the strategy is explicit; it says yes exactly if one of the keys gives all tags, by induction over keys and messages; different messages have independent values in the second table |
| C101 | `GOSTmsg05975sw` | C100 with the order from the certificates |
