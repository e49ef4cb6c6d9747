# Formal model of phoreproject/bls in Lean 4

The properties are listed in `properties.jsonl` (C01, C02, ...). This file says what is
modelled, how each property is (to be) proved and what is trusted. `MANIFEST.json` maps each
property to exact theorem names and says whether it is proved in full.

## 1. Layout

* `lean/Verif/Model/*` – definitions only: the Go code, function by function, each with a
  file/line citation into `/repo`.
* `lean/Verif/Spec/*` – the small independent specification, see below.
* `lean/Verif/Proof/*` – lemmas (refinement, loop invariants, number theory).
* `lean/Verif/Props/*` – the property theorems `Cnn_…`, with the non-vacuity examples beside them.
* `seeded/LOG.jsonl` – wrong programs tried against the theorems (one line per edit of the model).

What to read to understand the theorem statements (the specification):

| file | content |
|------|---------|
| `Spec/Params` | the numbers q and r |
| `Spec/Limbs`, `Spec/Bytes` | the integer a limb array or a byte string denotes |
| `Spec/Fields` | Fq2, Fq6, Fq12 as quotient rings on coordinates, and that they are fields |
| `Spec/Curve`, `Spec/Points` | the curves `y²=x³+4`, `y²=x³+4(1+u)` as Mathlib Weierstrass curves with Mathlib's group law; Jacobian coordinates |
| `Spec/Denote` | what FQ, FR, tower elements, affine and projective points denote |
| `Spec/Keys` | what keys and hashed messages denote |
| `Spec/Hash` | simplified SWU map, chord rule, isogenies, hash to field |
| `Spec/History` | sequences of calls on the scalar field in memory |
| `Spec/History12`, `Spec/Field12` | programs on FQ12, in memory, on values and in the field |
| `Spec/HistoryPoints` | programs on points, keys, signatures and messages, in memory and on values |
| `Spec/Program` | programs whose next call depends on what the earlier ones returned |
| `Spec/Threads` | goroutines that run programs on points, keys and signatures, schedules, data races |
| `Spec/ThreadsFR` | programs on scalars, goroutines that run them, schedules, data races |
| `Spec/ThreadsFQ12` | goroutines that run programs on FQ12 and the pairing, schedules, data races |
| `Spec/Network` | networks of aggregators that exchange byte strings |
| `Spec/Threshold` | sharing a secret key and combining the parties' signatures, as users do it with the API |
| `Spec/Sharing` | checking shares against public commitments, and several dealers, as users do it with the API |
| `Spec/Batch` | checking a batch of signatures with weights, as users do it with the API |
| `Spec/Blind` | blinding factors, blinding a message's hash, signing the blinded point and unblinding the answer, with the library's functions |
| `Spec/Seal` | encryption to a signature: what the sender sends, the mask in two ways, and the mask computed from a signature |
| `Spec/Agree` | key agreement of two and of three parties with the library's functions |
| `Spec/History6` | programs on `FQ6` and `FQ12` variables: as values, in memory, in the fields |
| `Spec/Queries` | the strings each function that hashes asks the hash function for |
| `Spec/Groups` | programs on scalars, points and pairing values, run with the library's functions and on paper |
| `Spec/Uses` | programs that use g1pubs or g2pubs, and the ideal signature scheme |
| `Spec/Calc` | programs on field elements and points, and the same programs on paper |
| `Spec/Euclid` | the logs of inversions and their observer |
| `Spec/Reduce` | forgers, their runs, the reductions |
| `Spec/ReduceAggregate` | forgers of distinct-message aggregates with proofs of possession, their reduction |
| `Spec/ReduceCommon` | forgers of common-message aggregates with proofs of possession, their reduction |
| `Spec/Reader` | several keys from one reader, streams of blocks |
| `Spec/AnyCurve` | points of any curve `y² = x³ + c` in the library's structures; everything the operations compute from given points |
| `Spec/Sorter` | what a routine can do through `Len`, `Less` and `Swap` |
| `Spec/Bits` | binary digits and their reversal |
| `Spec/Steps` | the point operations of a multiplication, logged |
| `Spec/Strings` | hexadecimal texts of field elements |
| `Spec/Asm` | Go's stack calling convention, as a contract of an instruction list |

## 2. Modelling decisions

* A `uint64` is Lean's `UInt64` (wrap-around arithmetic). `[6]uint64`/`[4]uint64` are structures
  of six/four words. Fixed-count loops over limbs are unrolled; data-dependent loops are
  recursive functions with fuel returning `Option`, together with a theorem that the fuel
  chosen always suffices (termination). The try-and-increment loop of `HashG2WithDomain` has
  the fuel `q`; that it ends within `q` steps is a theorem (Stepanov's method, `Proof/Stepanov`).
* Methods `(f *T) XAssign(args)` that mutate the receiver become functions returning the new
  receiver. This is the *value model*. Where objects are shared through pointers there is a
  *memory model* as well: `Model/Heap` (an `FR` is a pointer to its limbs; package variables
  are objects), `Model/Heap12` and `Model/Heap6` (an `FQ12` is two pointers to `FQ6`) and `Model/HeapPoints` (points, keys and
  signatures are pointers, a key points at its point, coordinates are values). They follow every read
  and write in program order. In `Model/HeapPoints`, `Model/HeapFR` and `Model/HeapFQ12` a call is a tree whose nodes are single
  accesses, so that goroutines can be interleaved between any two of them. `Proof/Heap*` prove that they agree with the value model where
  they do; C19, C45, C46 and C53 say where they do not.
* A Go panic (index out of range, nil dereference, explicit `panic`) is `none`.
* `math/bits` functions are modelled by their documented contract; `math/big` by `ℤ`/`ℕ`;
  `sort.Sort` by its contract: it only calls `Len`, `Less` and `Swap`, which are modelled, and
  afterwards no `Less(i+1, i)` holds. This is proved to determine the result (`C38_sorter`).
* SHA-256 (used for all hashing) is an arbitrary function parameter `sha`: the theorems hold for
  every choice of it. The random reader is the list of its outcomes (C47, C65) or of its bytes (`Model/Reader`, C89).
* The amd64 assembly is modelled instruction by instruction by a small x86 semantics
  (64-bit registers, carry flag, frame, argument area) in `Model/Asm`; the file is transcribed
  line by line. It is proved to return what the portable Go code returns, on which the rest of the
  model is built (C10).

How the larger results are reached:

* *Fields*: every MAC/add step gives an equation over ℕ; the Montgomery argument turns the sum into a
  congruence; refinement relation `Rep` from limbs to `ZMod q` and up the tower.
* *Curve arithmetic*: Jacobian formulas against Mathlib's `WeierstrassCurve.Affine.Point`, over any
  field (`Proof/Jacobian`).
* *Group orders*: primality of q (elliptic-curve certificate), r (Lucas) and the large cofactor prime
  (Pocklington); explicit points of prime power order and the automorphism
  `(x,y) ↦ (βx,y)` give a subgroup of h·r points; with at most two y per x there is no room for
  twice as many (`Proof/Orders`, `GroupOrders`).
* *Pairing*: the Miller loop equals a product of line values; lines form a symmetric 2-cocycle up to
  factors killed by the final exponentiation (`Proof/Cocycle`, `PairingVal`); bilinearity follows by
  comparing cocycles (`Proof/Extension`, `Bilinear`); non-degeneracy from one evaluation by the
  kernel at the generators (`Proof/PairingSteps*`) and the cyclic structure.
* *Hash to curve*: polynomial identities for SWU, the 11- and 3-isogenies checked as polynomial
  identities; cofactor clearing through ψ and the torsion at each prime dividing the order.
* *Signatures*: from bilinearity, non-degeneracy and the group orders.
* *Memory*: invariants over histories; for FQ12 and for points a simulation between memory and values.

## 3. Properties and proof plans

| id | modelled | proof |
|----|----------|-------|
| C01,C02 | fq.go, fqrepr.go, stub_fallback.go limb arithmetic | every MAC/add step gives an equation over ℕ; linear combination; Montgomery argument; refinement to `ZMod q` |
| C03 | binary-GCD loop | invariant `b·a ≡ u·R²`, `c·a ≡ v·R²` and coprimality; measure u+v for termination; negation (non-termination) for the non-canonical input q |
| C04 | Exp with BitIterator | invariant over the bits read |
| C05 | Sqrt, Legendre | Euler criterion in `ZMod q`, q ≡ 3 mod 4 |
| C06 | conversions | Montgomery form is a bijection below q |
| C07, C08 | fqrepr.go, frrepr.go | toNat arithmetic, bytes as base-256 digits |
| C09 | bititerator.go | induction on the number of calls |
| C10 | primitivefuncs_amd64.s | symbolic execution per instruction block; uniqueness of 768-bit numbers |
| C11,C12 | fr.go | as C01–C05 for r |
| C13 | g1pubs/g2pubs Serialize/Deserialize | from C12 and C08 |
| C14–C17 | fq2/fq6/fq12.go | refinement to tower fields; component-wise `ring` |
| C18 | Frobenius tables | coefficients checked by kernel computation, `frobenius` ring hom |
| C19 | FQ6.Exp with aliasing | false of the code: concrete witness; the value of the aliased product is characterised |
| C20–C23 | g1.go, g2.go generic over the field | Jacobian formulas against Mathlib's `WeierstrassCurve.Affine.Point` |
| C24 | Affine equality | G1 proved; G2 refuted with a witness and partial theorem |
| C25–C27 | Compress/Decompress | square-root uniqueness up to sign, ordering; canonicality refuted for the unchecked decoder |
| C28 | SerializeBytes/SetRawBytes | G2 proved; G1 refuted with a witness |
| C29 | aggregation | induction over lists in the point group |
| C30–C33 | pairing.go, G2AffineToPrepared | exponent chain; line-function identities on the curve; Frobenius eigenvalue |
| C34 | infinity | refuted: panic theorem |
| C35–C39 | g1pubs, g2pubs | from bilinearity and non-degeneracy |
| C40–C43 | hash.go, SWU maps | polynomial identities; square/non-square case split; group order |
| C44 | MulBits/MulBytes | FQ2 proved; FQ/FR characterised (bit-reversed) and refuted |
| C45, C46, C53 | FR pointers, globals | explicit store model; refuted with witnesses, partial positive theorems |
| C47 | Rand* | reader as oracle |
| C48 | group orders | torsion points of each prime power order, doubled up by an automorphism of order 3, and the bound of at most 2q+1 points (at most two y per x) |
| C49, C50 | key API | corollaries |
| C51 | SWEncodeG2 | Shallue–van de Woestijne identity |
| C54 | fq6.go, fq12.go, pairing.go with pointers | store model; simulation between programs on memory and programs on values, by induction on the program |
| C57 | g1.go, g2.go, pairing.go, g1pubs, g2pubs with pointers | store model; invariant (variables share nothing but G2AffineZero; the points inside keys are in no variable) and simulation, by induction on the program |
| C58 | the same, in goroutines | every call is a tree of single accesses (read one object, overwrite one, make one); the scheduler interleaves them; a goroutine's next call may depend on what its calls have returned; each goroutine is simulated by its own run alone, up to addresses, with a set of objects it may overwrite that no other may access |
| C59 | memory, results and BP after a call of each assembly function | from the destinations of the instructions, for any start state; a data flow analysis, proved sound, for what the results depend on; BP is refuted for three functions |
| C60 | the generator `asm/asm.go` as a program that emits instructions on virtual registers | the text and the generated list are compared in lockstep, keeping track of which register holds which virtual one; a comparison that succeeds is proved to mean equal results for all states |
| C61 | the memory model of C57, any memory | which existing addresses a tree of accesses may write, by induction on the tree; one lemma per function |
| C62 | the signature packages as in C29 and C37; the built key is a composition of modelled public calls | group law: the sum of the keys is one's own key; acceptance by the specification of Verify; wire validity by C25; repeated messages by C39 |
| C63 | HashG1 and HashG2 as in C40, C41 | the coordinates are carried through doubling, addition, isogeny and cofactor clearing as natural numbers mod q (`Proof/RawPoints`), which holds off the curve too; the kernel evaluates them. Equal points on G1: the sum is on the curve `y² = x³ + c` through the point (C73), which meets E1' in no other point because B is not a square and `x³ + 4Ax + 4B` has no root (`x^q` modulo the cubic, by the kernel); the isogeny maps pairs off E1' to pairs off E1, since E1 has no point of order 2 |
| C64 | Pairing, CompareTwoPairings, the verifiers, Sign, PrivToPub and the deserializers as in C26, C30-C38 | the specification of the pairing on finite points gives a value, `MillerLoop` on infinity gives none; outside the subgroup, the multiples of a point that the loop meets are infinity only if 13 times the point is, by the number of points of the curve (C48), and then its steps from 12Q + Q on give lines that are 0; induction over the batch; the strings read as infinity are determined bit by bit |
| C65 | RandFR, RandKey, RandG1, RandG2 as in C47, as functions of their draws | counting: draws (byte, x) and finite points correspond 128 to 1, the fibres of the multiplication by the cofactor have its size (from the group orders of C48), lists of draws by induction (`Proof/Uniform`). That the draws themselves are equally likely is the contract of crypto/rand and not modelled |
| C66 | the signature packages as in C35 and C36 | exactness of verification (C36) and the order r of the hash points |
| C67 | the loop of the multiplications (`scalarLoop`), run on a state with a log (`Spec/Steps`) | induction on the loop: the first component is the multiplication of C22, the log is given by the binary digits; the observer's computation undoes it. Field operations within a doubling or addition are not logged |
| C68 | fr.go with pointers, in goroutines | every call is a tree of single accesses (`Model/HeapFR`), proved equal to the store model of C45 when run alone; a goroutine numbers the objects that it makes itself, so it is simulated by its own run alone without renaming; per function, the objects that it may access; refuted for `Sqrt`, which overwrites a package variable |
| C69 | fq12.go and pairing.go with pointers, in goroutines | as C68: every call is a tree of single accesses (`Model/HeapFQ12`), proved equal to the memory model of C54 when run alone, which is proved equal to values; per function, the objects that it may access |
| C70 | signing, keys, serialization and aggregation of both packages as in C25, C29, C35-C39 | a network is an inductive relation between gathered signers and strings; by induction over it the string is the encoding of the sum of the signers' points; from this reading, agreement and verification by C25, C39 and C36; uniqueness of the string from C39, C64 and C27, for g1pubs under the condition of C27_g2_exact |
| C71 | verification and pairing as in C32 and C36, decoding as in C26 | the pairing is bilinear in its first argument on the whole curve (C32); the group has h1·r points with h1 prime to r (C48), so two points pair equally exactly if h1 times them agree; (0, 2) has order 3, which divides h1. Signatures of g1pubs and keys of g2pubs outside the subgroup are not treated, except for panics (C64): the loop of the pairing is not bilinear there |
| C72 | scalars as in C11 and C12, signing and keys as in C36, MulFR as in C21, aggregation as in C29; the users' recipe is Verif/Spec/Threshold.lean | shares and weights are values in Fr (C11, C12: no inverse of 0 is taken since the indices differ); Lagrange interpolation at 0 (Mathlib) gives the secret, and in a group of exponent r the same combination of the points; secrecy: adding a multiple of a polynomial that is 1 at 0 and 0 at the indices is a bijection between the polynomials for two secrets |
| C73 | point operations of G1 and G2 as in C20 to C23, aggregation as in C29 | the proofs of C20 to C23 hold for every curve with c ≠ 0; for every c the equation itself is an invariant of each formula (`Proof/AnyCurveInv`), by induction over the computation; (x, y) ↦ (u²x, u³y) is a homomorphism to the curve with constant u⁶c |
| C74 | as C72; PublicKey.Equals as in C30; the users' recipe is Verif/Spec/Sharing.lean | the commitments combined at an index are the polynomial's value times the generator (C21, C29), and multiples of the generator below r are equal only for equal factors; every point of the subgroup is a multiple of the generator (the subgroup has prime order r); several dealers: the sum of the polynomials is a polynomial, so C72 applies to it |
| C75 | HashG1, HashG2, Verify as in C40, C41, C36 | for one point: a hash value of the simplified SWU map is a root of a polynomial of degree 12; the isogenies are quotients of polynomials of degree 11 and 3, and no point of E1 or E2 has order 2, so at most 11 and 3 points go to one; cofactor clearing is a homomorphism that is injective on the subgroup (the endomorphism acts there as in C32), so its fibres have at most cofactor many points (C48); with one number fixed this bounds the others (`Proof/Spread`) |
| C76 | VerifyAggregate, AggregateSignatures, MulFR as in C39, C29, C21; the users' recipe is Verif/Spec/Batch.lean | a signature of the subgroup differs from the valid one by a multiple of the generator; the weighted check accepts exactly if the weighted sum of these factors is 0 modulo r, a linear equation in the weights, whose solutions are counted by induction on the batch |
| C77 | HashSecretKey, DeriveSecretKey, PrivToPub as in C50, C49 | the key is the number modulo r (C50), so its numbers are a residue class, which Mathlib counts; sets by induction; for every number a hash function is given that leads to it; public keys by the order of the generator. That hash values are uniformly distributed is an assumption about SHA-256 and not modelled |
| C78 | SWEncodeG2 as in C51 | the three candidates for x are quotients of degree 1, 1 and 2 in t², so four values of t² give one x; of t and -t only one gives the right sign of y; t² + b + 1 = 0 would make -(1 + b) a square, but its norm 41 is not a square modulo q (Euler's criterion, evaluated in the kernel) |
| C79 | hashing, MulFR, Inverse, Sign and Verify as before; the user's and the signer's steps in `Spec/Blind` | the values are multiples of the hash, `x⁻¹ · x · k · H = k · H`; the subgroup is cyclic of prime order, so of two points other than 0 the one is exactly one multiple of the other |
| C80 | Pairing, Exp, MulFR, hashing and Verify as before; the sender's and the receiver's steps in `Spec/Seal` | every mask is `e(P, H)` to the scalar; bilinearity moves the scalar, non-degeneracy on the subgroups makes the pairing injective in each argument |
| C81 | PrivToPub, MulFR, ToAffine, Pairing and Exp as before; the parties' steps in `Spec/Agree` | the shared values are `ab · G` and `e(G₁, G₂)` to `abc`; values of the model determine their representation, so equal points and field elements are equal results |
| C82 | the memory model of `FQ12` (`Model/Heap12`) with `RandFQ6` and `Exp` of `FQ6` (`Model/Heap6`); programs in `Spec/History6` | simulation: each `FQ6` variable is an object of its own that no `FQ12` points to, an invariant that all calls keep; `NewFQ12` turns two of them into the parts of a new `FQ12`. What is shared afterwards is read off the memory effect of each `FQ12` call |
| C83 | the hash functions as before, for every function in place of SHA-256; what each asks for is listed in `Spec/Queries` | equality of results when the answers are equal; lengths separate the kinds of strings and the digest at the front separates messages; a hash function is changed at one message's blocks only, and by induction on the list for all messages together |
| C84 | the model's functions as the operations of a small language of programs with branching; the same programs on paper (`Spec/Groups`) | a relation between the values of two ways to run a program that every operation keeps is kept by every program, by induction on the program; each operation keeps it by the theorems for that operation |
| C85 | the functions of g1pubs and g2pubs as the calls of programs with branching; the ideal scheme on scalars and points (`Spec/Uses`) | a relation between keys and signatures of the package and of the ideal scheme that every call keeps is kept by every program, by induction on the program; each call keeps it by the theorems for that function. Messages whose hash is infinity or whose mapped points are equal are left out (C63) |
| C86 | the methods of FQ, FQ2, FQ6, FQ12 and of the points of both curves as the operations of programs with branching; the same programs on paper (`Spec/Calc`) | as C84: every operation keeps the relation "denotes", and so does every program, by induction. Receivers are copied first, so that FQ6.MulAssign is not called with its receiver as argument, and FQ6.Exp is left out (C19); so are the MulBits of FQ and FR, which reverse the bits (C44), and G2Affine.Equals (C24) |
| C87 | the loops of both Inverse with a log of halvings and subtractions, and ToAffine of G1 with it; what an observer computes from the log (`Spec/Euclid`) | dropping the log gives the loops of the model. The log is that of a loop on natural numbers; read backwards it gives u and v as linear functions of the number that is left at the end, and v = q gives that number. u·v falls by at least half with each halving, and from the second round on each round has one. The inversion in FQ2 (and ToAffine of G2) inverts the norm in FQ, so its log shows the norm only, and is not treated |
| C88 | forgers as trees of questions, their run against answers, the answers made without the key, the reductions (`Spec/Reduce`, `Spec/ReduceAggregate`, `Spec/ReduceCommon`) | the points of the two runs are equal, since affine coordinates of a point are unique, so the runs agree question by question (induction on the forger); the accepted signature is k·e·Q, and multiplying by the inverse of e gives k·Q. In a distinct-message aggregate the part of another key is computed from its proof of possession (a known multiple of its key in the group of signatures) and taken away; that the aggregate is accepted implies that messages differ and keys are not zero (C38, C64). Existence and uniqueness of the factors: every point other than 0 of the subgroup is exactly one multiple of every other. A forger knows the public key, so the problem is the one in which k times the generator of the other group is given too. The probability that the message of the forgery is guessed, and the hardness of the problem, are not treated |
| C89 | the loop of Go's rand.Int (outside /repo, as in Go's crypto/rand/util.go) on the bytes of a reader, and RandFR, RandFQ, RandKey on it (`Model/Reader`); several keys from one reader (`Spec/Reader`) | strong induction on the stream; the numbers of streams satisfy a recursion in n (the first block is rejected or gives the first key), which does not depend on the keys; blocks are numbers below 256^k. This replaces the contract of rand.Int, used in C47 and C65, by its code, for these functions. RandG1 and RandG2 on the bytes (`Proof/ReaderPoints`): a program draws evenly if the number of streams that give a value and leave a rest with a property p is a sum over the lengths of the rest, with coefficients that do not depend on the value; a byte, an integer and one draw after another do; a loop of such draws gives equally many streams to results that have equally many draws, which C65 counts. The reader of the model gives its bytes whenever it has them; a Read that returns 0 bytes and no error is not modelled |
| C55 | String methods | fixed-width hexadecimal; strings with equal frames around parts of equal length |
| C56 | accessors of keys and signatures | from C20, C21 |
| C52 | constants | kernel computation; primality of r by Lucas, of q by an elliptic-curve certificate |

## 4. Trusted base

Lean's kernel and the axioms `propext`, `Classical.choice`, `Quot.sound` (every theorem in
`MANIFEST.json` uses at most these). No `sorry`, no own axioms, no `native_decide`/`bv_decide`.
Facts about large literals are evaluated by the kernel (`decide +kernel`).

That the model matches the Go source is by reading: each definition cites its lines. As a check of the reading,
`Verif/Vectors.lean` evaluates the model, when it is built, on the tests of /repo that have literal expectations: among
others `Pairing` of the generators (Relic's result), `HashG1`, `HashG2`, `HashG2WithDomain`, `DeriveSecretKey`, FQ2 square
roots, point addition, the word primitives. All agree. All other tests of g1pubs/bls_test.go and g2pubs/bls_test.go, with
shorter loops, were evaluated in the same way once and agree too; they are not in the build because it would take 20 minutes
longer. These are tests, not proofs, and no theorem uses them. Trusted in the reading:

* the meaning of Go's `uint64` arithmetic, slices, arrays (value semantics) and struct copies;
* the contracts of `math/bits`, `math/big`, `encoding/binary`, `bytes`, `sort`, `crypto/rand.Int`;
* for the assembly: the semantics given to the instructions in `Model/Asm`, Go's argument layout
  (`Spec/Asm`), that only the carry flag is read, and that Go's assembler saves `BP` in functions with a
  frame only (`Fn.call`). The flags other than carry and preemption are not modelled.

Not modelled: the library avo that assigns registers to the output of the generator `asm/asm.go` (its result,
the checked-in file, is checked: C60), tests, Go's compiler and runtime, memory exhaustion. Goroutines: the library
starts none; programs that use it from several are modelled for points, keys and signatures (C58), for scalars
(C68) and for FQ12 with the pairing (C69), with sequentially consistent memory and accesses to whole objects. Go promises
this for programs without data races, and C58, C68 and C69 have their absence too. A panic stops its goroutine only.
A goroutine uses objects of one of these three kinds; in C69 points are values.
