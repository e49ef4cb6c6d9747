{"id": "C01", "title": "FQ addition, subtraction, negation, doubling", "statement": "For canonical field elements, FQ.AddAssign, SubAssign, NegAssign and DoubleAssign leave a canonical element whose value is the sum, difference, opposite or double modulo the 381-bit prime q.", "quantifier": "all pairs of canonical 384-bit representations", "why_tests_cant": "2^762 operand pairs; carries and the conditional final subtraction depend on rare limb patterns", "anchors": ["fq.go: FQ.AddAssign, FQ.SubAssign, FQ.NegAssign, FQ.DoubleAssign, FQ.reduceAssign, FQ.IsValid", "fqrepr.go: AddNoCarry, SubNoBorrow, Mul2, Cmp"]}
{"id": "C02", "title": "FQ multiplication and squaring", "statement": "For canonical inputs FQ.MulAssign and FQ.SquareAssign leave a canonical element whose value is the product (square) modulo q; SquareAssign agrees with MulAssign by itself limb for limb.", "quantifier": "all pairs of canonical elements", "why_tests_cant": "carry chains of 36+42 multiply-accumulate steps; bugs in one carry show for a 2^-64 fraction of inputs", "anchors": ["fq.go: FQ.MulAssign, FQ.SquareAssign, FQ.montReduce", "stub_fallback.go: MultiplyFQRepr, MontReduce"]}
{"id": "C03", "title": "FQ inversion", "statement": "FQ.Inverse terminates for every canonical element; it reports failure exactly for zero and otherwise returns a canonical element whose product with the input is one. DivAssign multiplies by that inverse.", "quantifier": "all canonical elements", "why_tests_cant": "termination and correctness of a data-dependent binary-GCD loop over 2^381 inputs", "anchors": ["fq.go: FQ.Inverse, FQ.DivAssign"]}
{"id": "C04", "title": "FQ exponentiation", "statement": "FQ.Exp(n) is the n-th power for every 384-bit exponent, with x^0 = 1.", "quantifier": "all canonical bases and all 384-bit exponents", "why_tests_cant": "unbounded product of inputs", "anchors": ["fq.go: FQ.Exp", "bititerator.go: BitIterator.Next"]}
{"id": "C05", "title": "FQ square root and Legendre symbol", "statement": "FQ.Sqrt succeeds exactly when the element is a square modulo q, and then returns a canonical root whose square is the element; Legendre returns zero / residue / non-residue accordingly.", "quantifier": "all canonical elements", "why_tests_cant": "existence of a root is a number-theoretic fact about all 2^381 elements", "anchors": ["fq.go: FQ.Sqrt, FQ.Legendre", "fq2.go: qMinus3Over4"]}
{"id": "C06", "title": "FQ conversion and ordering", "statement": "FQReprToFQ followed by ToRepr returns the same integer for every integer below q, an integer >= q converts to the zero element, ToRepr of a canonical element is the unique integer in [0,q) it denotes, Cmp orders elements as those integers, Equals is equality of field values, Parity is x > -x.", "quantifier": "all 384-bit integers / all canonical elements", "why_tests_cant": "conversion goes through Montgomery multiplication; order must be right for every pair", "anchors": ["fq.go: FQReprToFQ, FQ.ToRepr, FQ.Cmp, FQ.Equals, FQ.Parity"]}
{"id": "C07", "title": "384-bit and 256-bit integer operations", "statement": "Mul2, Div2, Lsh, Rsh, AddNoCarry, SubNoBorrow, Cmp, Equals, IsZero, IsEven, IsOdd, BitLen and Bit of FQRepr/FRRepr agree with the integer operations modulo 2^384 / 2^256 for every value and every shift amount.", "quantifier": "all limb arrays and all shift counts", "why_tests_cant": "limb-boundary behaviour for every shift count and value", "anchors": ["fqrepr.go", "frrepr.go"]}
{"id": "C08", "title": "Integer encodings round-trip", "statement": "FQReprFromBytes/Bytes and FRReprFromBytes/Bytes are mutually inverse big-endian encodings; ToBig and FQReprFromBigInt/FRReprFromBigInt are mutually inverse, and the latter fail exactly for negative integers or integers that need more than 384/256 bits.", "quantifier": "all byte arrays, limb arrays and integers", "why_tests_cant": "round trips over all 2^384 values and all integers", "anchors": ["fqrepr.go: FQReprFromBytes, Bytes, ToBig, FQReprFromBigInt", "frrepr.go: FRReprFromBytes, Bytes, ToBig, FRReprFromBigInt"]}
{"id": "C09", "title": "Bit iterator", "statement": "A BitIterator over an array of 64-bit words yields exactly 64*len bits, most significant first, whose value is the array's little-endian integer, and reports done on every later call.", "quantifier": "all arrays of any length and all call sequences", "why_tests_cant": "unbounded array lengths and call histories", "anchors": ["bititerator.go: NewBitIterator, BitIterator.Next"]}
{"id": "C10", "title": "Assembly and portable primitives agree", "statement": "The amd64 assembly MACWithCarry, AddWithCarry, SubWithBorrow, AddNoCarry, SubNoBorrow, MultiplyFQRepr and MontReduce return the same values as the portable Go versions for all arguments on which both are used.", "quantifier": "all 64-bit / 384-bit / 768-bit arguments", "why_tests_cant": "no test can enumerate 768-bit inputs; the two builds share no code", "anchors": ["primitivefuncs_amd64.s", "stub_fallback.go", "stub.go"]}
{"id": "C11", "title": "FR arithmetic", "statement": "For canonical scalars, FR.AddAssign, SubAssign, NegAssign, DoubleAssign, MulAssign and SquareAssign leave a canonical scalar equal to the result modulo the 255-bit prime r.", "quantifier": "all pairs of canonical scalars", "why_tests_cant": "2^510 operand pairs", "anchors": ["fr.go", "frrepr.go: AddNoCarry, SubNoBorrow"]}
{"id": "C12", "title": "FR inversion, exponentiation, Legendre, conversion", "statement": "FR.Inverse terminates and is correct for every non-zero canonical scalar and returns nil for zero; Exp is the power; Legendre is right; FRReprToFR/ToRepr round-trip below r and FRReprToFR returns nil at or above r.", "quantifier": "all canonical scalars, all 256-bit exponents", "why_tests_cant": "termination and correctness over the whole field", "anchors": ["fr.go: FR.Inverse, FR.Exp, FR.Legendre, FRReprToFR, FR.ToRepr"]}
{"id": "C13", "title": "Secret-key serialization round-trip", "statement": "DeserializeSecretKey(sk.Serialize()) denotes the same scalar for every key; the byte strings that yield a usable key are exactly the big-endian integers below r, and Serialize inverts DeserializeSecretKey on them.", "quantifier": "all keys and all 32-byte strings", "why_tests_cant": "all 2^256 strings", "anchors": ["g1pubs/bls.go: SecretKey.Serialize, DeserializeSecretKey", "g2pubs/bls.go", "fr.go: FR.Bytes"]}
{"id": "C14", "title": "FQ2 arithmetic", "statement": "FQ2 add, sub, neg, double, mul, square, MultiplyByNonresidueAssign, Norm and InverseAssign compute in Fq[u]/(u^2+1); InverseAssign fails exactly for zero; Equals/Cmp is equality / the lexicographic order with c1 most significant.", "quantifier": "all canonical FQ2 elements", "why_tests_cant": "Karatsuba identities and canonical form for all inputs", "anchors": ["fq2.go"]}
{"id": "C15", "title": "FQ2 square root and Legendre symbol", "statement": "FQ2.Sqrt succeeds exactly on squares of Fq2 and then returns a root; Legendre classifies zero / square / non-square.", "quantifier": "all canonical FQ2 elements", "why_tests_cant": "existence claim over 2^762 elements", "anchors": ["fq2.go: FQ2.Sqrt, FQ2.Legendre, FQ2.Exp"]}
{"id": "C16", "title": "FQ6 arithmetic", "statement": "FQ6 add, sub, neg, double, mul (receiver and argument distinct objects), square, MulByNonresidueAssign, MulBy1Assign, MulBy01Assign and InverseAssign compute in Fq2[v]/(v^3-(1+u)); InverseAssign fails exactly for zero.", "quantifier": "all canonical FQ6 elements (distinct operands)", "why_tests_cant": "interpolation identities for all inputs", "anchors": ["fq6.go"]}
{"id": "C17", "title": "FQ12 arithmetic", "statement": "FQ12 add, sub, neg, double, mul, square, ConjugateAssign, MulBy014Assign, InverseAssign and Exp compute in Fq6[w]/(w^2-v); InverseAssign fails exactly for zero; Fq12 is a field.", "quantifier": "all canonical FQ12 elements, all 384-bit exponents", "why_tests_cant": "identities for all inputs", "anchors": ["fq12.go"]}
{"id": "C18", "title": "Frobenius maps", "statement": "FrobeniusMapAssign(k) on FQ2, FQ6 and FQ12 is x -> x^(q^k) for every element and every uint8 k.", "quantifier": "all canonical elements and all powers 0..255", "why_tests_cant": "tests sample a few elements; the coefficient tables must be right for all powers", "anchors": ["fq2.go: frobeniusCoeffFQ2c1", "fq6.go: frobeniusCoeffFQ6c1, frobeniusCoeffFQ6c2", "fq12.go: frobeniusCoeffFQ12c1, FrobeniusMapAssign"]}
{"id": "C19", "title": "FQ6 exponentiation", "statement": "FQ6.Exp(n) is the n-th power of the element, and FQ6.MulAssign with the receiver as its own argument is the square.", "quantifier": "all canonical FQ6 elements and 384-bit exponents", "why_tests_cant": "aliasing of receiver and argument makes the result differ from the product for almost all inputs", "anchors": ["fq6.go: FQ6.Exp, FQ6.MulAssign"]}
{"id": "C20", "title": "G1 group law", "statement": "G1Projective.Double, Add, AddAffine and NegAssign, G1Affine.ToProjective and G1Projective.ToAffine compute the elliptic-curve group law of y^2=x^3+4 over Fq for every pair of points, including infinity, equal and opposite operands.", "quantifier": "all pairs of points in every Jacobian representation", "why_tests_cant": "exceptional cases have measure zero in random tests", "anchors": ["g1.go: G1Projective.Double, Add, AddAffine, ToAffine, NegAssign"]}
{"id": "C21", "title": "G2 group law", "statement": "The same for G2Projective / G2Affine and y^2=x^3+4(1+u) over Fq2.", "quantifier": "all pairs of points in every Jacobian representation", "why_tests_cant": "exceptional cases have measure zero in random tests", "anchors": ["g2.go: G2Projective.Double, Add, AddAffine, ToAffine"]}
{"id": "C22", "title": "Scalar multiplication", "statement": "Mul, MulFR and MulBig return k*P for every point P and every non-negative scalar k of the scalar type (including 0 and multiples of the order).", "quantifier": "all points, all scalars", "why_tests_cant": "2^384 scalars; the loop passes through exceptional additions", "anchors": ["g1.go: G1Affine.Mul, MulFR, G1Projective.Mul, MulFR", "g2.go: G2Affine.Mul, MulFR, MulBig, G2Projective.Mul, MulFR"]}
{"id": "C23", "title": "Projective equality is point equality", "statement": "G1Projective.Equal, G2Projective.Equals and PublicKey.Equals return true exactly when both sides denote the same curve point, whatever their Z coordinates; ToAffine and therefore Serialize depend only on the point.", "quantifier": "all pairs of on-curve Jacobian triples", "why_tests_cant": "each point has q representations", "anchors": ["g1.go: G1Projective.Equal", "g2.go: G2Projective.Equals", "g1pubs/bls.go: PublicKey.Equals", "g2pubs/bls.go: PublicKey.Equals"]}
{"id": "C24", "title": "Affine equality is point equality", "statement": "G1Affine.Equals and G2Affine.Equals return true exactly when both affine points are the same curve point.", "quantifier": "all pairs of affine points", "why_tests_cant": "a test that only compares equal points cannot see a predicate that is always true", "anchors": ["g1.go: G1Affine.Equals", "g2.go: G2Affine.Equals"]}
{"id": "C25", "title": "Point compression round-trip", "statement": "DecompressG1(CompressG1(P)) and DecompressG2(CompressG2(P)) succeed and return P for every point of the r-order subgroup, including infinity; so Serialize/Deserialize of public keys and signatures is lossless.", "quantifier": "all points of G1 and G2", "why_tests_cant": "the sign bit and square-root branch must agree for all 2^255 points", "anchors": ["g1.go: CompressG1, DecompressG1", "g2.go: CompressG2, DecompressG2", "g1pubs/bls.go: Serialize, DeserializeSignature, DeserializePublicKey"]}
{"id": "C26", "title": "Decompression is sound", "statement": "Every byte string accepted by DecompressG1/DecompressG2 yields a point on the curve with r*P = infinity; unchecked decompression yields a point on the curve; all other strings are rejected with an error, never a panic.", "quantifier": "all 2^384 / 2^768 byte strings", "why_tests_cant": "adversarial inputs", "anchors": ["g1.go: DecompressG1, DecompressG1Unchecked, GetG1PointFromX, IsInCorrectSubgroupAssumingOnCurve", "g2.go: DecompressG2, DecompressG2Unchecked, GetG2PointFromX"]}
{"id": "C27", "title": "Point encodings are canonical", "statement": "Distinct accepted byte strings decode to distinct points, i.e. re-encoding a decoded point gives back the input bytes.", "quantifier": "all accepted byte strings", "why_tests_cant": "malleability shows only on out-of-range coordinates", "anchors": ["g1.go: DecompressG1Unchecked, DecompressG1", "g2.go: DecompressG2Unchecked, DecompressG2", "fq.go: FQReprToFQ"]}
{"id": "C28", "title": "Uncompressed serialization round-trip", "statement": "SetRawBytes(SerializeBytes(P)) restores P for G1Affine and G2Affine.", "quantifier": "all points", "why_tests_cant": "Montgomery conversion errors affect almost all points but no test calls the pair", "anchors": ["g1.go: G1Affine.SerializeBytes, SetRawBytes", "g2.go: G2Affine.SerializeBytes, SetRawBytes"]}
{"id": "C29", "title": "Aggregation is a sum", "statement": "AggregateSignatures and AggregatePublicKeys denote the group sum of their inputs, so the result does not depend on order or grouping, the empty aggregate is the identity, and incremental Aggregate calls give the same result.", "quantifier": "all finite lists of signatures / keys and all permutations", "why_tests_cant": "unbounded lists and orders", "anchors": ["g1pubs/bls.go: AggregateSignatures, AggregatePublicKeys, Aggregate, NewAggregateSignature", "g2pubs/bls.go"]}
{"id": "C30", "title": "Final exponentiation", "statement": "FinalExponentiation(f) = f^(3(q^12-1)/r) for every non-zero f and nil exactly for zero.", "quantifier": "all FQ12 elements", "why_tests_cant": "an addition chain in the exponent, must hold for all 2^4572 elements", "anchors": ["pairing.go: FinalExponentiation"]}
{"id": "C31", "title": "Miller loop is multiplicative over its inputs", "statement": "MillerLoop on a list of pairs of finite points is, after final exponentiation, the product of the Miller loops of the single pairs; it never indexes outside the prepared coefficients.", "quantifier": "all lists of finite pairs", "why_tests_cant": "unbounded lists", "anchors": ["pairing.go: MillerLoop", "g2.go: G2AffineToPrepared"]}
{"id": "C32", "title": "Pairing is bilinear", "statement": "Pairing(aP, bQ) = Pairing(P,Q)^(ab) for all P in G1, Q in G2 and all scalars for which no argument is infinity; Pairing(P1+P2,Q)=Pairing(P1,Q)Pairing(P2,Q) and likewise on the right.", "quantifier": "all points of the r-order subgroups and all scalars", "why_tests_cant": "algebraic law over 2^510 pairs", "anchors": ["pairing.go: Pairing, MillerLoop, FinalExponentiation", "g2.go: G2AffineToPrepared"]}
{"id": "C33", "title": "Pairing is non-degenerate", "statement": "Pairing(P,Q) != 1 for all non-identity P in G1, Q in G2, and its r-th power is 1.", "quantifier": "all non-identity points of the subgroups", "why_tests_cant": "2^510 pairs", "anchors": ["pairing.go: Pairing"]}
{"id": "C34", "title": "Pairing with infinity", "statement": "Pairing and CompareTwoPairings treat a point at infinity as contributing the neutral element; in particular Verify returns (rather than panics) on any successfully deserialized key and signature.", "quantifier": "all points including infinity", "why_tests_cant": "a 48/96-byte attacker-chosen string decodes to infinity", "anchors": ["pairing.go: MillerLoop", "g1pubs/bls.go: Verify", "g2pubs/bls.go: Verify"]}
{"id": "C35", "title": "Signature completeness", "statement": "Verify(m, PrivToPub(sk), Sign(m, sk)) is true for every non-zero secret key and every message whose hash is a point of the subgroup other than infinity (see C40, C41 for when that is so), and likewise the WithDomain variant, where only infinity is excluded.", "quantifier": "all messages, all keys, all domains", "why_tests_cant": "2^255 keys times all messages", "anchors": ["g1pubs/bls.go: Sign, Verify, PrivToPub, SignWithDomain, VerifyWithDomain", "g2pubs/bls.go: Sign, Verify, PrivToPub"]}
{"id": "C36", "title": "Signature uniqueness (verification is exact)", "statement": "For every public key sk*G and every signature point in the correct subgroup, Verify returns true only if the signature is the point Sign(m, sk): no second point verifies.", "quantifier": "all messages, keys and subgroup points", "why_tests_cant": "soundness quantifies over all possible forged points", "anchors": ["g1pubs/bls.go: Verify", "g2pubs/bls.go: Verify"]}
{"id": "C37", "title": "Common-message aggregate verification", "statement": "VerifyAggregateCommon accepts exactly the sum of the signatures of the listed keys over one message, for any number of keys in any order, as long as the keys do not add up to infinity; it equals Verify under the summed key.", "quantifier": "all lists of keys and messages", "why_tests_cant": "unbounded lists", "anchors": ["g1pubs/bls.go: VerifyAggregateCommon, VerifyAggregateCommonWithDomain", "g2pubs/bls.go: VerifyAggregateCommon"]}
{"id": "C38", "title": "Distinct-message aggregate verification: guards", "statement": "VerifyAggregate returns false whenever the numbers of keys and messages differ or two messages are equal byte for byte, and does not reject a batch of pairwise different messages for that reason; it does not modify its arguments.", "quantifier": "all lists of keys and messages", "why_tests_cant": "unbounded lists of unbounded messages, any order of duplicates", "anchors": ["g1pubs/bls.go: Signature.VerifyAggregate, sortByteArrays", "g2pubs/bls.go: Signature.VerifyAggregate"]}
{"id": "C39", "title": "Distinct-message aggregate verification: correctness", "statement": "For pairwise distinct non-empty messages, keys other than infinity and a signature in the subgroup other than infinity, VerifyAggregate returns true exactly when the signature is the sum of the individual signatures.", "quantifier": "all lists of keys, messages and signature points", "why_tests_cant": "unbounded lists", "anchors": ["g1pubs/bls.go: Signature.VerifyAggregate, VerifyAggregateWithDomain", "g2pubs/bls.go: Signature.VerifyAggregate"]}
{"id": "C40", "title": "Hash to G1 stays on the curve and never panics", "statement": "For every message and every hash function, HashG1 does not panic, and unless the two mapped points have the same x-coordinate or the isogeny denominator vanishes at their sum, it returns a point of the curve in the subgroup of order r: the cofactor-cleared isogeny image of the sum of the simplified-SWU images of the two hashed field elements.", "quantifier": "all messages (all pairs of field elements t1,t2)", "why_tests_cant": "simplified SWU branch selection over all 2^762 pairs", "anchors": ["g1.go: optimizedSWUMapHelper", "hash.go: HashG1, optimizedSWUMap, iso11, hp"]}
{"id": "C41", "title": "Hash to G2 stays on the curve and never panics", "statement": "For every message and every hash function, HashG2 does not panic or return nil, and unless the two mapped points have the same x-coordinate, it returns a point of the curve in the subgroup of order r: the cofactor-cleared isogeny image of the sum of the simplified-SWU images of the two hashed field elements.", "quantifier": "all messages (all pairs of Fq2 elements)", "why_tests_cant": "branch selection over all inputs", "anchors": ["g2.go: OptimizedSWU2MapHelper", "hash.go: HashG2, optimizedSWUMap2, iso3, clearH2, psi"]}
{"id": "C42", "title": "Hash outputs lie in the prime-order subgroup", "statement": "ClearH maps every point of E1(Fq) into the subgroup of order r; clearH2 (inside HashG2) maps every finite point of E2(Fq2) into the subgroup of order r; ScaleByCofactor does so on both curves.", "quantifier": "all curve points", "why_tests_cant": "needs the group structure of the full curve groups", "anchors": ["hash.go: ClearH, clearH2, psi", "g1.go: ScaleByCofactor", "g2.go: ScaleByCofactor"]}
{"id": "C43", "title": "Domain-separated hash to G2", "statement": "HashG2WithDomain terminates (within q iterations) for every message hash and domain, and returns a point of order dividing r on E2: the cofactor multiple of the point whose x-coordinate is the first of x0, x0+1, ... that is on the curve, with the lexicographically larger y.", "quantifier": "all message hashes and domains", "why_tests_cant": "try-and-increment loop over all inputs", "anchors": ["g2.go: HashG2WithDomain"]}
{"id": "C44", "title": "MulBits and MulBytes multiply by the number", "statement": "FQ.MulBits(b), FR.MulBits(b) and FQ2.MulBits(b) return the element times the integer b; MulBytes(b) returns the element times the big-endian integer b.", "quantifier": "all elements and all integers", "why_tests_cant": "bit order errors are invisible on palindromic or small inputs", "anchors": ["fq.go: FQ.MulBits, MulBytes", "fr.go: FR.MulBits, MulBytes", "fq2.go: FQ2.MulBits"]}
{"id": "C45", "title": "Constructors do not modify their arguments", "statement": "FRReprToFR, KeyFromFQRepr and field operations leave the argument object unchanged.", "quantifier": "all scalars and all later uses of the argument", "why_tests_cant": "aliasing is only visible through a later use of the argument", "anchors": ["fr.go: FRReprToFR, FR.MulAssign", "g1pubs/bls.go: KeyFromFQRepr", "g2pubs/bls.go: KeyFromFQRepr"]}
{"id": "C46", "title": "Library calls do not change later results", "statement": "No call sequence changes the package's constants: after any history of FR operations, Exp, Legendre, HashFR and Sqrt return the same results as in a fresh process, and FR.Sqrt returns a square root.", "quantifier": "all call histories", "why_tests_cant": "state corruption needs the right history", "anchors": ["fr.go: FR.Sqrt, bigOneFR, frOne, FR.Exp"]}
{"id": "C47", "title": "Random generation", "statement": "RandFQ, RandFR and RandKey return canonical elements denoting the integer drawn in [0,q) / [0,r) and propagate reader errors; RandG1/RandG2 return a non-identity point of the prime-order subgroup.", "quantifier": "all reader outputs", "why_tests_cant": "depends on all reader outputs", "anchors": ["fq.go: RandFQ", "fr.go: RandFR", "g1.go: RandG1", "g2.go: RandG2", "g1pubs/bls.go: RandKey"]}
{"id": "C48", "title": "Group orders", "statement": "E1(Fq) has exactly h1*r points and E2(Fq2) exactly h2*r points with the library's cofactors h1, h2, and the r-torsion subgroups are cyclic of order r generated by G1AffineOne and G2AffineOne; IsInCorrectSubgroupAssumingOnCurve accepts exactly their multiples.", "quantifier": "all points of both curves", "why_tests_cant": "counting 2^381 / 2^762 points", "anchors": ["g1.go: g1Cofactor, frChar, IsInCorrectSubgroupAssumingOnCurve, G1AffineOne", "g2.go: g2Cofactor, G2AffineOne"]}
{"id": "C49", "title": "Key homomorphism", "statement": "PrivToPub turns addition of secret scalars into aggregation of public keys, equal public keys imply equal secret scalars, and Sign turns addition of secret scalars into aggregation of signatures.", "quantifier": "all pairs of keys and messages", "why_tests_cant": "2^510 pairs", "anchors": ["g1pubs/bls.go: PrivToPub, Sign, AggregatePublicKeys", "g2pubs/bls.go"]}
{"id": "C50", "title": "Derived keys are valid", "statement": "DeriveSecretKey always yields a usable (non-nil, canonical) secret key equal to the hash output reduced modulo r.", "quantifier": "all 32-byte seeds and all hash functions", "why_tests_cant": "all seeds", "anchors": ["hash.go: HashSecretKey", "g1pubs/bls.go: DeriveSecretKey"]}
{"id": "C51", "title": "Shallue-van de Woestijne encoding", "statement": "SWEncodeG2 returns a non-nil point of the curve for every FQ2 element.", "quantifier": "all canonical FQ2 elements", "why_tests_cant": "the third candidate is used only when two others fail", "anchors": ["g2.go: SWEncodeG2"]}
{"id": "C52", "title": "Global constants are what they claim", "statement": "q and r are prime; the Montgomery constants, negativeOne, qMinus3Over4, qMinus1Over2, BCoeff, the generators, the cofactors and the isogeny and psi coefficients satisfy the equations the algorithms rely on.", "quantifier": "a finite table of constants, used by every call", "why_tests_cant": "a test with the same wrong constant passes", "anchors": ["fq.go", "fr.go", "fq2.go", "g1.go", "g2.go", "hash.go"]}
{"id": "C53", "title": "Returned objects are independent of package state", "statement": "Mutating a value returned by Copy, ToAffine, ToProjective, GetPoint or an arithmetic call never changes package constants or other values.", "quantifier": "all values and all later mutations", "why_tests_cant": "aliasing shows only after a later mutation", "anchors": ["g2.go: G2Projective.ToAffine", "fq12.go: FQ12One, FQ12Zero", "g1pubs/bls.go: SecretKey.GetFRElement"]}
{"id": "C54", "title": "FQ12 pointers are invisible", "statement": "A program built from FQ12 calls and the pairing functions gives the results it would give if every FQ12 were a plain element of the field: an in-place call changes its receiver only, also when receiver and argument are the same pointer, results share nothing with arguments, and FQ12Zero and FQ12One keep their values as long as they are not receivers.", "quantifier": "all programs (sequences of calls of any length) and all arguments", "why_tests_cant": "sharing between objects shows only after particular later calls; the sequences are unbounded", "anchors": ["fq12.go: FQ12 (all methods)", "fq6.go", "pairing.go: MillerLoop, FinalExponentiation, Pairing, CompareTwoPairings"]}
{"id": "C55", "title": "Printed forms are faithful", "statement": "String of a field element shows its integer in hexadecimal (fixed width); canonical elements print the same exactly when they are equal; the string of a projective point, public key or signature depends only on the curve point and shows its affine coordinates, and different points print differently; the string of a secret key is its scalar, so it must be kept as secret as the key.", "quantifier": "all canonical elements, all points in all projective representations, all keys", "why_tests_cant": "injectivity and independence of the representation range over all pairs of values", "anchors": ["fq.go: FQ.String", "fqrepr.go: FQRepr.String", "fr.go: FR.String", "g1.go: G1Affine.String, G1Projective.String", "g2.go: G2Affine.String, G2Projective.String", "g1pubs/bls.go: SecretKey.String, PublicKey.String, Signature.String"]}
{"id": "C56", "title": "Wrapping and unwrapping keeps the point", "statement": "NewPublicKeyFromG1/G2 and NewSignatureFromG1/G2 give a key or signature for exactly the given point, which serializes as the compressed point; GetPoint and Copy denote the same point, and GetFRElement the same scalar.", "quantifier": "all points including infinity, all keys and signatures", "why_tests_cant": "all points", "anchors": ["g1pubs/bls.go: NewPublicKeyFromG1, NewSignatureFromG2, GetPoint, Copy, GetFRElement", "g2pubs/bls.go: NewPublicKeyFromG2, NewSignatureFromG1, GetPoint, Copy, GetFRElement"]}
{"id": "C57", "title": "Point, key and signature pointers are invisible", "statement": "A program built from the calls on points, keys, signatures and message lists gives the results it would give if these were plain values: NegAssign, SetRawBytes and Aggregate change their receiver only, every other call changes nothing, results can be changed in place without effect on arguments, on the points inside keys and signatures, or on the package's zero and generator variables.", "quantifier": "all programs (sequences of calls of any length) and all arguments", "why_tests_cant": "sharing between objects shows only after particular later calls; the sequences are unbounded", "anchors": ["g1.go: G1Affine, G1Projective (all methods), DecompressG1, GetG1PointFromX", "g2.go: G2Affine, G2Projective (all methods), DecompressG2, GetG2PointFromX, SWEncodeG2", "pairing.go: Pairing, CompareTwoPairings", "g1pubs/bls.go: all functions", "g2pubs/bls.go: all functions"]}
{"id": "C58", "title": "Goroutines do not disturb each other", "statement": "Goroutines may share points, keys, signatures and message lists, as long as one that a goroutine changes in place (NegAssign, SetRawBytes, Aggregate) is used by no other: under every schedule each goroutine gets from its calls what it would get if it ran alone, there is no data race, shared objects that nobody changes (the package variables among them) keep their values, and a goroutine that is scheduled often enough finishes.", "quantifier": "all numbers of goroutines, all programs they run, which may branch on what their calls return, all schedules", "why_tests_cant": "the schedules are unbounded and a test run sees one of them; the race detector only reports races that happen", "anchors": ["g1.go: G1Affine, G1Projective (all methods), package variables", "g2.go: G2Affine, G2Projective (all methods), ToAffine, package variables", "hash.go: HashG1, HashG2", "pairing.go: Pairing, CompareTwoPairings", "g1pubs/bls.go: all functions", "g2pubs/bls.go: all functions"]}
{"id": "C59", "title": "Assembly functions keep what belongs to their caller", "statement": "A call of one of the amd64 assembly functions changes no memory of its caller other than its result words, and no word of the stack outside its own frame; all its declared result words are computed from its declared arguments alone; and it leaves the frame pointer BP as it was, as Go's calling convention for assembly asks.", "quantifier": "all functions of the assembly file, all arguments, all contents of registers, stack and flags before the call", "why_tests_cant": "a test sees the results of a call but not the other memory and registers, and corruption shows up only in some later use of them", "anchors": ["primitivefuncs_amd64.s: all functions", "stub.go: all declarations"]}
{"id": "C60", "title": "The assembly file is what its generator describes", "statement": "For all arguments, each function of the checked-in assembly file gives the results that the instruction list built by the generator asm/asm.go gives on its virtual registers; and every other correct assignment of processor registers to the generator's program gives them too, so that generating the file anew does not change the library's arithmetic.", "quantifier": "all arguments, all contents of registers, frames and flags before the call, all assignments of registers", "why_tests_cant": "a wrongly reused register shows only for some arguments, and the assignments that a future generator run may choose cannot be enumerated", "anchors": ["asm/asm.go: main, muladdc, muladdcConst, r", "primitivefuncs_amd64.s: all functions"]}
{"id": "C61", "title": "A call changes no existing object but its receiver", "statement": "Every call on points, keys, signatures and message lists leaves all objects that existed before it unchanged, except what its receiver points at in NegAssign, SetRawBytes and Aggregate. This holds at every moment during the call and also when it panics, so that other goroutines never see a shared object change under a call that is not made on it; in particular the verification calls, which negate and sort, do so on copies.", "quantifier": "all calls, all contents of the memory (reachable or not, with any aliasing), all moments during the call", "why_tests_cant": "a test looks at some objects after the call returns; a change that is undone before the return, a change of an aliased object or one made before a panic stays unseen", "anchors": ["g1.go: all methods of G1Affine and G1Projective", "g2.go: all methods of G2Affine and G2Projective", "pairing.go: Pairing, CompareTwoPairings", "g1pubs/bls.go: all functions", "g2pubs/bls.go: all functions"]}
{"id": "C62", "title": "Common-message verification proves nothing about keys chosen last", "statement": "For all public keys of others, every non-zero secret key of one's own and every message that hashes to a point, the public calls AggregatePublicKeys, GetPoint, ToAffine, NegAssign, ToProjective, Add and NewPublicKeyFromG1/NewPublicKeyFromG2 build a further public key such that one's own signature alone is accepted by VerifyAggregateCommon (and VerifyAggregateCommonWithDomain) for the others' keys together with it. If the others' keys are valid on the wire, so is the built key: DeserializePublicKey accepts its serialization, and the forged check still succeeds with the deserialized key. VerifyAggregateWithDomain, which does not insist on distinct messages, accepts one's own signature in the same way for the message repeated once per key. So callers must ask for a proof of possession before they use common-message verification or repeat a message.", "quantifier": "all lists of public keys, secret keys, messages, domains, hash functions for which the message hashes to a point", "why_tests_cant": "a test shows acceptance for some keys; that no validation in the library (curve, subgroup, encoding) stops such a key for any choice is a statement about all of them", "anchors": ["g1pubs/bls.go: VerifyAggregateCommon, VerifyAggregateCommonWithDomain, VerifyAggregateWithDomain, AggregatePublicKeys, DeserializePublicKey, NewPublicKeyFromG1", "g2pubs/bls.go: VerifyAggregateCommon, AggregatePublicKeys, DeserializePublicKey, NewPublicKeyFromG2"]}
{"id": "C63", "title": "Where HashG1 and HashG2 leave the curve", "statement": "HashG1 and HashG2 map two field elements derived from the message to two points of an isogenous curve and add them. When those two points are opposite (which they are whenever the field elements are not 0 and add up to 0), the result is one fixed pair of coordinates, the same for all such messages, that IsOnCurve rejects. When the sum is in the kernel of the isogeny, HashG1 returns the pair (0, 0), not marked as infinity, that IsOnCurve rejects. When the points are equal HashG1 returns infinity or coordinates that IsOnCurve rejects, so that a hash other than infinity is on the curve exactly if the mapped points are neither equal nor opposite and their sum is not in the kernel. HashG2 is off the curve too if all field elements are 0. So neither function returns a point of the curve for every hash function with values of 32 bytes; with SHA-256 such messages are not known.", "quantifier": "all hash functions and messages with colliding mapped points", "why_tests_cant": "no message with this property is known for SHA-256, so no test input reaches the case", "anchors": ["hash.go: HashG1, HashG2, optimizedSWUMap, optimizedSWUMap2, iso11, iso3, clearH2", "g1.go: optimizedSWUMapHelper, AddAffine, Double", "g2.go: AddAffine, Double"]}
{"id": "C64", "title": "Exactly when verification and signing panic", "statement": "Pairing panics exactly if one of its points is infinity; it returns nil exactly if neither is and the point of the second curve has order 13 (the cofactor is divisible by 13, so such points exist; they are outside the subgroup). CompareTwoPairings panics exactly if one of its points is infinity or one of the second curve has order 13. In g1pubs, Verify, VerifyWithDomain and VerifyAggregateCommon panic exactly if the key (or the sum of the keys) or the hash of the message is infinity, or the signature is infinity or has order 13; VerifyAggregate panics exactly if the messages pass its checks and one of the keys or hashes is infinity, or the signature is infinity or has order 13. In g2pubs the same holds with key and signature exchanged. On strings that the deserializers accept, Verify panics exactly if one of them is c0 00 ... 00, which is the only encoding of infinity. Sign and PrivToPub panic exactly if the secret key has no value, which for keys read from 32 bytes means that the number is r or more. There is a string of 96 bytes that DecompressG2Unchecked accepts and from which NewPublicKeyFromG2 (g2pubs) and NewSignatureFromG2 (g1pubs) make a key or signature on which Verify always panics; DecompressG2 refuses it.", "quantifier": "all points of the two curves, in the subgroups or not, all lists of keys and messages, all hash functions that give points, all accepted strings", "why_tests_cant": "a test shows a panic on some inputs; that no other key, signature or batch makes a verifier crash is a claim about all of them", "anchors": ["pairing.go: Pairing, CompareTwoPairings, MillerLoop", "g1pubs/bls.go: Verify, VerifyWithDomain, VerifyAggregate, VerifyAggregateCommon, VerifyAggregateWithDomain, VerifyAggregateCommonWithDomain, Sign, PrivToPub, DeserializePublicKey, DeserializeSignature, DeserializeSecretKey", "g2pubs/bls.go: the same functions", "g2.go: DecompressG2Unchecked"]}
{"id": "C65", "title": "Random values are uniformly distributed", "statement": "If all draws of rand.Int and of the reader are equally likely, then RandFR and RandKey give every scalar, and PrivToPub of RandKey every point of the subgroup, with the same probability. RandG1 and RandG2 give every point of the subgroup other than the identity with the same probability: for every n, the number of lists of n draws that lead to it is the same. The identity comes up slightly less often (cofactor minus one draws instead of cofactor many). Both functions end: the number of lists of n draws on which they are not done is the n-th power of a number that is at most 129/256 of the number of draws.", "quantifier": "all points of the subgroups, all scalars, all numbers of draws", "why_tests_cant": "statistics on samples cannot show that 2^255 results are equally likely, nor that a loop ends with probability one", "anchors": ["g1.go: RandG1, GetG1PointFromX, ScaleByCofactor", "g2.go: RandG2, GetG2PointFromX, ScaleByCofactor", "fr.go: RandFR", "g1pubs/bls.go: RandKey, PrivToPub", "g2pubs/bls.go: RandKey, PrivToPub"]}
{"id": "C66", "title": "A signature does not transfer", "statement": "Verify(m', PrivToPub(sk'), Sign(m, sk)) returns for all non-zero keys k, k' and messages with hash points H, H', and is true exactly if k·H = k'·H'. With one key it is true exactly if the two messages hash to the same point, with one message exactly if the keys are equal. The same holds for SignWithDomain and VerifyWithDomain with two domains, and across Sign and VerifyWithDomain, SignWithDomain and Verify: a signature is valid for another message, domain or variant only where the hash functions collide.", "quantifier": "all pairs of keys, messages and domains, every function in place of SHA-256", "why_tests_cant": "a test can show for a few pairs that verification fails, not that it fails for all pairs without a hash collision", "anchors": ["g1pubs/bls.go: Sign, SignWithDomain, Verify, VerifyWithDomain, PrivToPub", "g2pubs/bls.go: Sign, Verify, PrivToPub"]}
{"id": "C67", "title": "What the point operations of signing reveal", "statement": "PrivToPub, Sign and SignWithDomain with the scalar k make one point doubling for each binary digit of k and one addition for each digit one, in the order of the digits from the first, whatever the message. So the sequence of these operations, and with it the running time, depends on the key: it differs for any two keys, and from the sequence the key can be computed.", "quantifier": "all keys below r, all messages and domains that have a hash point", "why_tests_cant": "timings of some keys show a tendency; that the sequence determines every key is a statement about all of them", "anchors": ["g1.go: MulFR", "g2.go: MulFR", "frrepr.go: Bit, BitLen", "g1pubs/bls.go: PrivToPub, Sign, SignWithDomain", "g2pubs/bls.go: PrivToPub, Sign"]}
{"id": "C68", "title": "Goroutines on scalars", "statement": "Goroutines that use FR values, FRRepr values and secret keys at the same time, where what one of them changes through a shared variable no other uses (reading one secret key from all of them is allowed; FRReprToFR and KeyFromFQRepr count as changing their argument), get from their calls what each would get alone, find in their variables the values they would find alone, finish, panic only if they would alone, and have no data race; the package variables keep their values.", "quantifier": "all first programs, all numbers of goroutines, all programs of any length, which may branch on what their calls return, all schedules, all points in time", "why_tests_cant": "the schedules of a program are too many to try, and a data race need not show in any run", "anchors": ["fr.go: FR and all its methods, FRReprToFR, HashFR, bigOneFR, bigZeroFR", "g1pubs/bls.go: SecretKey, KeyFromFQRepr", "g2pubs/bls.go: SecretKey, KeyFromFQRepr"]}
{"id": "C69", "title": "Goroutines on FQ12 and the pairing", "statement": "Goroutines that use FQ12 values, MillerLoop, FinalExponentiation, Pairing and CompareTwoPairings at the same time, where a shared FQ12 that one of them changes in place is not used by another (using FQ12One, or reading one element from all of them, is allowed), get from their calls the results that these have on plain values, find in their variables the values that their own program gives them, finish, panic only if their program does so on values, and have no data race; FQ12Zero, FQ12One and every shared element that nobody changes keep their values throughout.", "quantifier": "all first programs, all numbers of goroutines, all programs of any length, which may branch on what their calls return, all schedules, all points in time", "why_tests_cant": "the schedules of a program are too many to try, and a data race need not show in any run", "anchors": ["fq12.go: FQ12 and all its methods, FQ12Zero, FQ12One", "fq6.go: FQ6 methods", "pairing.go: MillerLoop, FinalExponentiation, Pairing, CompareTwoPairings"]}
{"id": "C70", "title": "Aggregation networks", "statement": "Signers send their signatures and public keys as byte strings; aggregators read whatever strings reach them, from signers or from other aggregators, aggregate and send the serialized result on. No string is refused anywhere. Strings that gather the same signers, over whatever network and in whatever order, are equal byte for byte. The final string is accepted by VerifyAggregate for the keys the signers sent and their pairwise different messages, and for one common message by Verify with the key gathered over another network, unless what was gathered is infinity. In g2pubs no other string is accepted in its place, in g1pubs none unless a coefficient of the x coordinate of the gathered point is zero.", "quantifier": "all numbers of signers, all secret keys, all messages, all networks of any depth and width, all strings", "why_tests_cant": "unboundedly many shapes of networks and orders, and all strings of the size of a signature", "anchors": ["g1pubs/bls.go: Sign, PrivToPub, Serialize, DeserializeSignature, DeserializePublicKey, AggregateSignatures, AggregatePublicKeys, VerifyAggregate, Verify", "g2pubs/bls.go: the same"]}
{"id": "C71", "title": "Verification does not check the subgroup", "statement": "Every point of the first curve is a multiple of the generator plus a point whose order divides the cofactor, and verification sees only the multiple. In g2pubs, Verify accepts a signature built with NewSignatureFromG1 from any curve point other than infinity exactly if it is the signature of C36 plus a point of the cofactor part; VerifyAggregate accepts in the same way up to the cofactor part. In g1pubs, a public key built with NewPublicKeyFromG1 from such a sum accepts the same signatures as the key without the added point. DecompressG1Unchecked gives such a point, (0, 2) from the bytes 80 00 ... 00. So every key and message of g2pubs has two signatures that Verify accepts and that serialize differently, and every key of g1pubs has a twin; the deserializers refuse the second one. Callers who build keys and signatures from points must check IsInCorrectSubgroup themselves if they rely on there being one signature.", "quantifier": "all curve points as signatures in g2pubs and as public keys in g1pubs, all keys, messages, batches of distinct messages and hash functions for which the messages hash to points", "why_tests_cant": "that acceptance is exactly equality up to the cofactor part is a statement about all points of the curve, about 2^381 of them; a test can only show one accepted or refused", "anchors": ["g1.go: DecompressG1Unchecked, IsInCorrectSubgroup", "pairing.go: CompareTwoPairings, Pairing", "g1pubs/bls.go: NewPublicKeyFromG1, Verify, DeserializePublicKey", "g2pubs/bls.go: NewSignatureFromG1, Verify, VerifyAggregate, DeserializeSignature"]}
{"id": "C72", "title": "Threshold signing", "statement": "A dealer shares a secret scalar with a polynomial over FR, using MulAssign and AddAssign, and gives every party its value at the party's index; parties sign and derive public keys with their shares through KeyFromFQRepr. If at least as many parties with different indices as the polynomial has coefficients contribute, then with the weights computed by SubAssign, Inverse and MulAssign, the weighted signatures (MulFR, Aggregate) serialize to the very bytes Sign makes with the secret, the weighted public keys to those of PrivToPub, the combined signature verifies under either, and the weighted shares give the secret itself; no Inverse fails. With fewer parties than coefficients, none with index 0, the shares say nothing: for any two secrets there are equally many polynomials giving those shares.", "quantifier": "all secrets, all polynomials of any degree, all sets of indices of any size, all messages that hash to a point, with domains too in g1pubs", "why_tests_cant": "polynomials of any degree and any set of parties, over a field of 2^255 elements", "anchors": ["fr.go: MulAssign, AddAssign, SubAssign, Inverse, Equals, ToRepr", "g1.go: MulFR", "g2.go: MulFR", "g1pubs/bls.go: KeyFromFQRepr, Sign, SignWithDomain, PrivToPub, NewSignatureFromG2, NewPublicKeyFromG1, AggregateSignatures, AggregatePublicKeys, Verify", "g2pubs/bls.go: the same"]}
{"id": "C73", "title": "Points that are not on the curve", "statement": "The formulas do not use the constant of the curve. A finite value with canonical coordinates lies on exactly one curve y² = x³ + c, the library's exactly if IsOnCurve accepts; if c is not 0, then Double, Add, AddAffine, Mul, MulFR, MulBig, negation, ToAffine, ToProjective, Equal, IsZero and the aggregation of signatures and keys are those of the group of that curve, and IsInCorrectSubgroupAssumingOnCurve tells whether the order there divides r. So this check does not replace IsOnCurve: every point of the subgroup but infinity gives, for every u with u⁶ ≠ 1, a point (u²x, u³y) that passes it and is not on the library's curve. Whatever the operations compute from points of one curve, c = 0 included, is infinity or on that curve. So of everything computed from one value that IsOnCurve rejects, IsOnCurve accepts only infinity.", "quantifier": "all canonical coordinates, all curves y² = x³ + c over both fields, all scalars, all sequences of operations of any length, all lists to aggregate", "why_tests_cant": "2^381 curves for G1 and 2^762 for G2, and computations of any length", "anchors": ["g1.go: G1Affine.IsOnCurve, IsInCorrectSubgroupAssumingOnCurve, Mul, MulFR, NegAssign, ToProjective, G1Projective.Double, Add, AddAffine, Mul, MulFR, ToAffine, Equal, IsZero", "g2.go: the same for G2Affine and G2Projective, MulBig", "g1pubs/bls.go: AggregateSignatures, AggregatePublicKeys", "g2pubs/bls.go: AggregateSignatures, AggregatePublicKeys"]}
{"id": "C74", "title": "Verifiable sharing and distributed key generation", "statement": "A dealer publishes the public keys of the coefficients of its polynomial. A party combines them at its index with MulFR and AggregatePublicKeys and compares the result, by Equals, with the public key of the scalar it received: they are equal exactly if the scalar is its share. Whatever points of the subgroup a dealer publishes, they are the public keys of exactly the coefficients of some polynomial, and all parties' checks accept exactly the shares of that one polynomial. With several dealers, each party adds up its shares and signs with the sum; the signatures and public keys of any set of parties larger than every dealer's number of further coefficients combine to exactly the signature of the sum of the dealers' secrets and to the bytes of AggregatePublicKeys of the dealers' public keys, and that signature verifies under that aggregate unless the sum is 0. Both packages; in g1pubs with domains too.", "quantifier": "all polynomials, all indices and received scalars, all commitments in the subgroup, all numbers of dealers and parties, all messages whose hash is defined", "why_tests_cant": "polynomials of any length over a field of 2^255 elements, any number of dealers, and any dishonest commitments", "anchors": ["g1pubs/bls.go: PrivToPub, AggregatePublicKeys, NewPublicKeyFromG1, GetPoint, PublicKey.Equals, Sign, SignWithDomain, Verify, VerifyWithDomain", "g2pubs/bls.go: the same", "g1.go: G1Projective.MulFR, ToAffine", "g2.go: G2Projective.MulFR, ToAffine", "fr.go: AddAssign, MulAssign"]}
{"id": "C75", "title": "No point is the hash of many hash values", "statement": "HashG1 depends on the hash function only through two numbers of 512 bits, HashG2 through four. For every point, infinity included, at most a fraction 133/r of the pairs make HashG1 return it, and at most 37/r of the quadruples make HashG2 return it. So if the hash values are uniformly distributed, a public key of the subgroup other than infinity and a signature of the subgroup that are fixed in advance are accepted by Verify with probability at most 37/r (g1pubs) or 133/r (g2pubs), whatever the message; this counts the hash values for which the hash leaves the curve (C63). HashG1 reaches at least r/133 - 1 points of the subgroup and HashG2 at least r/37 - 1, with hash values of 32 bytes.", "quantifier": "all points, all public keys and signatures in the subgroups, all messages, all hash values", "why_tests_cant": "2^1024 pairs and 2^2048 quadruples of hash values, and 2^255 points", "anchors": ["hash.go: HashG1, HashG2, hp, hp2, optimizedSWUMap, optimizedSWUMap2, iso11, iso3, ClearH, clearH2", "g1pubs/bls.go: Verify", "g2pubs/bls.go: Verify"]}
{"id": "C76", "title": "What an accepted batch says about its signatures", "statement": "For any two keys and different messages whose valid signatures do not add up to infinity, there are two signatures, each rejected by Verify, whose aggregate VerifyAggregate accepts: an accepted aggregate says nothing about the single signatures. If the keys and signatures are first multiplied by weights from 1 to r - 1 (MulFR), it does: if some signature of the batch is not valid, VerifyAggregate accepts for at most one in r - 1 choices of the weights, and of the (r - 1)^n choices, if all are valid, it accepts for all, except that it panics for those that make the weighted signatures add up to infinity. Both packages; in g1pubs with domains too, and there for any messages.", "quantifier": "all batches of any length of public keys and signatures in the subgroups and pairwise different, non-empty messages with a hash, all choices of weights", "why_tests_cant": "(r - 1)^n choices of weights for batches of every length n, and all forged signatures", "anchors": ["g1pubs/bls.go: Verify, VerifyWithDomain, AggregateSignatures, VerifyAggregate, VerifyAggregateWithDomain, GetPoint, NewSignatureFromG2, NewPublicKeyFromG1", "g2pubs/bls.go: the same", "g1.go: MulFR, ToAffine", "g2.go: MulFR, ToAffine"]}
{"id": "C77", "title": "Derived keys are evenly distributed", "statement": "DeriveSecretKey depends on the hash function only through one number of 512 bits (two hash values). For every seed and every key below r, 0 included, the number of these that give the key is 2^512/r, rounded down or up. So if the hash values are uniformly distributed, the probability that the key lies in any given set K differs from the probability for a uniformly distributed key by at most |K|/2^512, less than 2^-257, and the public key of the derived key is every point of the subgroup, infinity included, for 2^512/r numbers, rounded down or up.", "quantifier": "all seeds, all keys and sets of keys, all points of the subgroups, all hash values", "why_tests_cant": "no sample of hash values shows a deviation of 2^-257, nor its absence for every set of keys", "anchors": ["hash.go: HashSecretKey", "g1pubs/bls.go: DeriveSecretKey, PrivToPub", "g2pubs/bls.go: DeriveSecretKey, PrivToPub"]}
{"id": "C78", "title": "SWEncodeG2 spreads its inputs", "statement": "No point is SWEncodeG2 of more than four field elements, infinity only of 0, so that at least q²/4 points are reached; SWEncodeG2(-t) is the negative of SWEncodeG2(t); and the branch for t² + b + 1 = 0, which returns the generator or its negative, is never taken.", "quantifier": "all field elements, all points of the second curve", "why_tests_cant": "2^762 field elements and as many points; that a branch is dead is a statement about all inputs", "anchors": ["g2.go: SWEncodeG2, GetG2PointFromX", "fq2.go: Parity, NegAssign"]}
{"id": "C79", "title": "Blind signing with the library's functions is correct, checkable and blind", "statement": "A user who multiplies the hash of a message by a scalar other than 0, has the result multiplied by the secret key and multiplies the answer by the scalar's inverse gets, byte for byte, the signature Sign makes. Verify accepts what the user makes of an answer in the subgroup exactly if the answer was the point sent times the key. What the user sends is never infinity, and for every message and every point that can be sent exactly one scalar leads from the one to the other, so that the point says nothing about the message.", "quantifier": "all messages with a hash, all domains, all blinding scalars, all keys, all answers in the subgroup, both packages", "why_tests_cant": "that a message is hidden is a statement about all scalars for each pair of a message and a point; correctness ranges over all keys and scalars", "anchors": ["g1pubs/bls.go: Sign, SignWithDomain, Verify, VerifyWithDomain, GetFRElement, NewSignatureFromG2", "g2pubs/bls.go: Sign, Verify, GetFRElement, NewSignatureFromG1", "g1.go, g2.go: MulFR, ToAffine", "fr.go: Inverse, ToRepr"]}
{"id": "C80", "title": "What is encrypted for a key and a message is opened exactly by the signature Verify accepts", "statement": "With a scalar other than 0, a sender derives a mask from a public key and a message by Pairing, either multiplying the key by the scalar before or raising the pairing's value to the scalar afterwards: both give the same FQ12 value, never nil, never 1 and an r-th root of unity. Pairing the scalar times the generator with a signature of the subgroup gives this mask exactly if Verify accepts the signature for the key and the message. Different scalars give different masks, and two pairs of key and message share a mask for the same scalar exactly if they share the signature. In g1pubs all this holds with domains too: for the message in a domain and VerifyWithDomain, and across domains for the shared masks.", "quantifier": "all messages (and domains) with a hash, all keys of the subgroup other than infinity, all scalars other than 0, all signatures of the subgroup other than infinity, both packages", "why_tests_cant": "that nothing but the signature opens the mask is a statement about all points of the subgroup; agreement of both ways of computing the mask ranges over all scalars", "anchors": ["pairing.go: Pairing", "fq12.go: Exp", "g1.go, g2.go: MulFR", "g1pubs/bls.go: Verify, VerifyWithDomain, GetPoint", "g2pubs/bls.go: Verify, GetPoint"]}
{"id": "C81", "title": "Two and three parties who exchange public keys agree on one secret", "statement": "If two parties multiply each other's public point by their own secret scalar and convert to affine, both have the same coordinates, those of the product of both scalars times the generator, and not infinity. If three parties each pair the other two's public points and raise the value to their own scalar, all three get the same FQ12 value, whichever of the other two's points they take in G1 and which in G2; it is an r-th root of unity other than 1. In both cases different own scalars give different secrets.", "quantifier": "all secret scalars other than 0 of all parties, both packages", "why_tests_cant": "agreement must hold for all triples of scalars and all orders of taking the points, though the parties compute through different projective coordinates and different field values", "anchors": ["pairing.go: Pairing", "fq12.go: Exp", "g1.go, g2.go: MulFR, ToAffine", "g1pubs/bls.go: PrivToPub, GetPoint, GetFRElement", "g2pubs/bls.go: PrivToPub, GetPoint, GetFRElement"]}
{"id": "C82", "title": "Programs on FQ6 pointers and NewFQ12, and what NewFQ12 shares", "statement": "A program that calls any functions of FQ6 and FQ12, that does not change FQ6Zero, FQ6One, FQ12Zero or FQ12One in place and does not use an FQ6 again after passing it to NewFQ12, leaves in every variable the value and gets from every call the boolean that it would with elements as plain values; with canonical coordinates, no x.MulAssign(x) and no Exp on an FQ6, this is arithmetic in the fields with q^6 and q^12 elements. NewFQ12 keeps the two pointers: a later change of one of the FQ6 changes the FQ12, and in the other direction AddAssign, SubAssign, DoubleAssign, NegAssign, ConjugateAssign and FrobeniusMapAssign on the FQ12 change both FQ6 to its new coordinates, MulAssign and MulBy014Assign only the second, SquareAssign and InverseAssign neither. With the same FQ6 twice, DoubleAssign multiplies by four and NegAssign changes nothing. FQ12One and FQ12Zero are made of FQ6One and FQ6Zero, so changing one of these in place changes them.", "quantifier": "all programs of any length, all choices of variables, all coordinates", "why_tests_cant": "which of the pointers are shared depends on the history of calls, and there are infinitely many histories", "anchors": ["fq6.go: FQ6 and all its methods, NewFQ6, RandFQ6, FQ6Zero, FQ6One", "fq12.go: NewFQ12 and all methods of FQ12, FQ12Zero, FQ12One"]}
{"id": "C83", "title": "What is asked of SHA-256, and that hashes of different messages are independent", "statement": "HashG1, HashG2, HashSecretKey and HashG2WithDomain, and signing and verification with them, depend on SHA-256 only through its values at five, nine, three and two strings. Two messages with different digests, or a message and a seed, have none of these strings in common, if no message is 34 bytes long (such a message can be one of another message's strings); two different pairs of message and domain have none in common; a message and a message with a domain have none in common unless the message is 40 bytes long. So the hashes of different messages are independent: whatever points the hash functions can give for each of any number of messages alone, one hash function gives for all of them together, and the hashes of one message can be changed without changing any other. What is shared: HashG1 and HashG2 of one message use the same strings, and the secret key made from a seed that begins with the byte 1 and the hash to G1 of the rest of the seed are made from the same 512-bit number.", "quantifier": "all hash functions with 32-byte digests, all messages, seeds and domains, any number of messages", "why_tests_cant": "independence is a statement about all hash functions and all other messages; a test sees one hash function", "anchors": ["hash.go: HashG1, HashG2, HashSecretKey", "g2.go: HashG2WithDomain", "g1pubs/bls.go: Sign, Verify, SignWithDomain, VerifyWithDomain", "g2pubs/bls.go: Sign, Verify"]}
{"id": "C84", "title": "Programs on scalars, points and pairing values compute in the groups", "statement": "There are one bilinear, non-degenerate pairing with values in the r-th roots of unity, one encoding of scalars and one of the points of each group such that every program that makes scalars, points of G1 and G2 and pairing values with this library's functions (arithmetic of FR; points added, doubled, negated, multiplied, converted and decompressed; Pairing, MillerLoop with FinalExponentiation on any number of pairs; products, inverses, conjugates and powers of pairing values), and that chooses what to call next by what its comparisons, CompareTwoPairings and encodings gave before, does what it would do on paper in the field with r elements and in the groups: it panics or meets a nil result exactly if an operation has no result on paper, it sees the same booleans and bytes, and its variables denote the elements it would make on paper. So what a program sees depends only on the elements its variables denote and never on how they are represented.", "quantifier": "all programs of any length that branch on all they have seen, all initial variables that denote scalars, points of order r (or infinity) and r-th roots of unity", "why_tests_cant": "a test runs some programs from some representations; the claim is about all adaptive programs and all representations, with one pairing and one encoding for all of them", "anchors": ["fr.go: FR", "g1.go: G1Projective, G1Affine, CompressG1, DecompressG1", "g2.go: G2Projective, G2Affine, CompressG2, DecompressG2", "pairing.go: Pairing, MillerLoop, FinalExponentiation, CompareTwoPairings", "fq12.go: MulAssign, SquareAssign, InverseAssign, ConjugateAssign, Exp, Equals"]}
{"id": "C85", "title": "Every program that uses g1pubs or g2pubs sees what it would see with the ideal signature scheme", "statement": "For each package there are one point of order r for each message (the hash of the message, and of the message with its domain) and one encoding of keys and signatures such that every program that uses the package - reads, derives and writes secret keys, makes, reads, writes, compares, aggregates and sums public keys, signs, reads, writes, aggregates and sums signatures, and verifies with Verify, VerifyAggregateCommon and VerifyAggregate and their forms with domains - and that chooses what to call next by all it has seen, sees exactly what it would see with the ideal scheme: there a public key is its secret scalar x, the signature of m is x times the point of m, and a signature is accepted for keys and messages if and only if it is the sum of those points. The program panics exactly if it would there: a secret key read from a number not below r is used, or a verification reaches a public key (or sum of keys) or a signature that is infinity. VerifyAggregate rejects without a panic if the numbers of keys and messages differ, and without domains if messages are equal or empty. The encoding of public keys of g1pubs and of signatures of g2pubs is the only one that is accepted.", "quantifier": "all programs of any length that branch on all they have seen, all messages (and domains) whose hash is a point of order r, all bytes of the right lengths, all initial keys and signatures that denote scalars and points of order r (or infinity)", "why_tests_cant": "a test runs some programs with some keys; the claim is about all adaptive programs, among them those that try to have a forged combination of signatures accepted", "anchors": ["g1pubs/bls.go: Serialize, Deserialize*, DeriveSecretKey, PrivToPub, Sign*, Verify*, Aggregate*, NewAggregate*, Equals", "g2pubs/bls.go: Serialize, Deserialize*, DeriveSecretKey, PrivToPub, Sign, Verify*, Aggregate*, NewAggregate*, Equals"]}
{"id": "C86", "title": "Programs on field elements and on points of any order compute in the fields and in the groups of the curves", "statement": "There is one choice of a square root of every square of Fq and Fq2 and of a point of order r on each curve such that every program that makes elements of FQ, FQ2, FQ6 and FQ12 and points of both curves with the library's functions (numbers, coefficients, sums, products, inverses, quotients, powers, roots, Frobenius maps, norms, sparse products; sums, mixed sums, multiples, multiples by the cofactor, conversions, points from coordinates or from x, coordinates of points), looks at them (equality, order, parity, Legendre symbols, numbers, membership in the subgroup) and chooses what to do next by all it has seen, sees exactly what it would see if it computed in Fq, Fq2, Fq6, Fq12 and in the groups of the curves y^2 = x^3 + 4 and y^2 = x^3 + 4(1+u), has no result (an inverse of 0, a root of a nonsquare, a point that is not on the curve, a coordinate of infinity) exactly if there is none on paper, and makes only canonical elements and points on the curve. In particular what it sees does not depend on the representation of points.", "quantifier": "all programs of any length that branch on all they have seen, all canonical elements and all points of both curves, inside and outside the subgroups, in all representations", "why_tests_cant": "a test runs some computations on some elements; the claim is about all sequences of operations, whose intermediate results reach every corner of the reduction and of the addition formulas", "anchors": ["fq.go: FQ", "fq2.go: FQ2", "fq6.go: FQ6", "fq12.go: FQ12", "g1.go: G1Affine, G1Projective, GetG1PointFromX", "g2.go: G2Affine, G2Projective, GetG2PointFromX"]}
{"id": "C87", "title": "The steps of an inversion reveal the inverted element, and their number is bounded", "statement": "Inverse of an element of FQ or FR other than zero ends after at most 761 halvings and 762 rounds (509 and 510 for FR). Their sequence, which determines the running time, depends on the element: from the halvings and subtractions alone one can compute it, so two different elements are never inverted with the same steps, and the number of rounds is not constant. ToAffine of a G1Projective inverts z, so that its steps and its result determine all three coordinates of the receiver, which are not to be published when the point is a multiple by a secret scalar.", "quantifier": "all canonical elements other than zero of FQ and FR, all pairs of them, all points other than infinity of the first curve in all representations", "why_tests_cant": "a bound on the number of steps is about the slowest of 2^381 elements, and that steps determine the element is a claim on all pairs of elements", "anchors": ["fq.go: FQ.Inverse", "fr.go: FR.Inverse", "g1.go: G1Projective.ToAffine"]}
{"id": "C88", "title": "Forging a signature, or cheating an aggregate with proofs of possession, is as hard as the Diffie-Hellman problem", "statement": "Let a forger be any program that asks for hashes and for signatures (as bytes) of messages it chooses by the answers, and ends with a message it has not had signed and bytes that DeserializeSignature and Verify accept for it. Then k times Q can be computed from k times the generator and Q with functions of the library and one run of the forger, without the secret key k, if the hashes are known multiples of the generator and, for the message of the forgery, of Q: the answers made this way are, byte for byte, those of HashG2 and Sign. For every hash function there is exactly one choice of the factors. Likewise, if every public key but one comes with a signature that Verify accepts for it on some message, an aggregate accepted by VerifyAggregateCommon for all keys gives k times Q for the one key: proofs of possession prevent the attack of C62. This holds also of a forger that may have any messages signed by the one key that are not claims of such proofs, and ends with keys, proofs, a message and an aggregate, as bytes, that are accepted. A forger of a distinct-message aggregate, which may have messages signed and ends with keys, messages, proofs of possession of the other keys (signatures of claims that are not the attacked message) and an aggregate that VerifyAggregate accepts, with a message for the attacked key that it has not signed, gives k times Q in one run too; with domains, if the other messages differ from it, which VerifyAggregateWithDomain does not check. All this with and without domains and for both packages.", "quantifier": "all forgers, of any number of questions, all hash functions, secret keys, points Q and messages; all lists of keys with proofs", "why_tests_cant": "the statement ranges over all adversary programs and all hash functions", "anchors": ["g1pubs/bls.go: Sign, SignWithDomain, Verify, VerifyWithDomain, VerifyAggregateCommon, VerifyAggregateCommonWithDomain, VerifyAggregate, VerifyAggregateWithDomain, AggregateSignatures, DeserializeSignature, DeserializePublicKey", "g2pubs/bls.go: Sign, Verify, VerifyAggregateCommon, VerifyAggregate, AggregateSignatures, DeserializeSignature, DeserializePublicKey", "g1.go: G1Affine.MulFR", "g2.go: G2Affine.MulFR"]}
{"id": "C89", "title": "What keys and field elements come from which bytes of the reader", "statement": "RandKey (both packages) and RandFR read blocks of 32 bytes and take the first whose lower 255 bits are a big-endian number below r; that number is the key. They read nothing after that block, so the same bytes always give the same key and leave the reader at the same place, and they return the error of the reader exactly if it ends before such a block. Keys drawn one after the other from one reader are evenly and independently distributed if the bytes are: each sequence of keys comes from the same number of streams of n blocks, for every n; no key comes from (2^256-2r)^n of the 2^(256n) streams. RandFQ does the same with blocks of 48 bytes, of which 381 bits count. RandG1 and RandG2 return, for every stream of bytes, a point of the group of order r, which depends only on the bytes they have read, or the error of the reader at its end; for every N, each point of that group but the identity is the result for the same number of streams of N bytes; 49 bytes (G1) and 97 (G2) can give each of them.", "quantifier": "all byte streams that readers give, of any length, all keys and all sequences of keys", "why_tests_cant": "a claim on the frequencies of all 2^255 keys, and on all streams", "anchors": ["fr.go: RandFR", "fq.go: RandFQ", "g1.go: RandG1", "g2.go: RandG2", "g1pubs/bls.go: RandKey", "g2pubs/bls.go: RandKey"]}
