{
 "claims": [
  {
   "property": "C01",
   "status": "proved",
   "theorems": [
    "Bls.Props.C01_add",
    "Bls.Props.C01_sub",
    "Bls.Props.C01_neg",
    "Bls.Props.C01_double"
   ],
   "note": ""
  },
  {
   "property": "C02",
   "status": "proved",
   "theorems": [
    "Bls.Props.C02_mul",
    "Bls.Props.C02_square"
   ],
   "note": ""
  },
  {
   "property": "C03",
   "status": "proved",
   "theorems": [
    "Bls.Props.C03_inverse_zero",
    "Bls.Props.C03_inverse",
    "Bls.Props.C03_div_zero",
    "Bls.Props.C03_div"
   ],
   "note": ""
  },
  {
   "property": "C04",
   "status": "proved",
   "theorems": [
    "Bls.Props.C04_exp",
    "Bls.Props.C04_exp_zero"
   ],
   "note": ""
  },
  {
   "property": "C05",
   "status": "proved",
   "theorems": [
    "Bls.Props.C05_sqrt",
    "Bls.Props.C05_sqrt_none",
    "Bls.Props.C05_legendre"
   ],
   "note": ""
  },
  {
   "property": "C06",
   "status": "proved",
   "theorems": [
    "Bls.Props.C06_ofRepr_toRepr",
    "Bls.Props.C06_toRepr_ofRepr",
    "Bls.Props.C06_cmp",
    "Bls.Props.C06_equals",
    "Bls.Props.C06_parity"
   ],
   "note": ""
  },
  {
   "property": "C07",
   "status": "proved",
   "theorems": [
    "Bls.Props.C07_fq_add_sub",
    "Bls.Props.C07_fq_shift",
    "Bls.Props.C07_fq_compare",
    "Bls.Props.C07_fq_bits",
    "Bls.Props.C07_fr_toFQ",
    "Bls.Props.C07_fr_add_sub",
    "Bls.Props.C07_fr_shift",
    "Bls.Props.C07_fr_compare",
    "Bls.Props.C07_fr_bits"
   ],
   "note": "All shift amounts and all limb values, for FQRepr and FRRepr."
  },
  {
   "property": "C08",
   "status": "proved",
   "theorems": [
    "Bls.Props.C08_fq_bytes",
    "Bls.Props.C08_fq_big",
    "Bls.Props.C08_fr_bytes",
    "Bls.Props.C08_fr_big"
   ],
   "note": ""
  },
  {
   "property": "C09",
   "status": "proved",
   "theorems": [
    "Bls.Props.C09_iterator"
   ],
   "note": ""
  },
  {
   "property": "C10",
   "status": "proved",
   "theorems": [
    "Bls.Props.C10_macWithCarry",
    "Bls.Props.C10_addWithCarry",
    "Bls.Props.C10_subWithBorrow",
    "Bls.Props.C10_borrow",
    "Bls.Props.C10_multiplyFQRepr",
    "Bls.Props.C10_montReduce",
    "Bls.Props.C10_addNoCarry",
    "Bls.Props.C10_subNoBorrow",
    "Bls.Props.C10_multiplyFQRepr_value"
   ],
   "note": ""
  },
  {
   "property": "C11",
   "status": "proved",
   "theorems": [
    "Bls.Props.C11_add",
    "Bls.Props.C11_sub",
    "Bls.Props.C11_neg",
    "Bls.Props.C11_double",
    "Bls.Props.C11_mul",
    "Bls.Props.C11_square"
   ],
   "note": ""
  },
  {
   "property": "C12",
   "status": "proved",
   "theorems": [
    "Bls.Props.C12_inverse_zero",
    "Bls.Props.C12_inverse",
    "Bls.Props.C12_exp",
    "Bls.Props.C12_legendre",
    "Bls.Props.C12_ofRepr_toRepr",
    "Bls.Props.C12_toRepr_ofRepr",
    "Bls.Props.C12_cmp_equals"
   ],
   "note": "Exp/Legendre with bigOneFR as initialised; see C46."
  },
  {
   "property": "C13",
   "status": "proved",
   "theorems": [
    "Bls.Props.C13_roundtrip_g1pubs",
    "Bls.Props.C13_deserialize_g1pubs",
    "Bls.Props.C13_keyFromFQRepr_g1pubs",
    "Bls.Props.C13_nil_g1pubs",
    "Bls.Props.C13_roundtrip_g2pubs",
    "Bls.Props.C13_deserialize_g2pubs",
    "Bls.Props.C13_keyFromFQRepr_g2pubs",
    "Bls.Props.C13_nil_g2pubs"
   ],
   "note": ""
  },
  {
   "property": "C14",
   "status": "proved",
   "theorems": [
    "Bls.Props.C14_tower",
    "Bls.Props.C14_faithful",
    "Bls.Props.C14_add",
    "Bls.Props.C14_sub",
    "Bls.Props.C14_neg",
    "Bls.Props.C14_double",
    "Bls.Props.C14_mul",
    "Bls.Props.C14_square",
    "Bls.Props.C14_mulByNonresidue",
    "Bls.Props.C14_norm",
    "Bls.Props.C14_inverse",
    "Bls.Props.C14_equals",
    "Bls.Props.C14_cmp",
    "Bls.Props.C14_div",
    "Bls.Props.C14_exp"
   ],
   "note": ""
  },
  {
   "property": "C15",
   "status": "proved",
   "theorems": [
    "Bls.Props.C15_legendre",
    "Bls.Props.C15_sqrt_iff",
    "Bls.Props.C15_sqrt_root"
   ],
   "note": ""
  },
  {
   "property": "C16",
   "status": "proved",
   "theorems": [
    "Bls.Props.C16_faithful",
    "Bls.Props.C16_add",
    "Bls.Props.C16_sub",
    "Bls.Props.C16_neg",
    "Bls.Props.C16_double",
    "Bls.Props.C16_mul",
    "Bls.Props.C16_square",
    "Bls.Props.C16_mulByNonresidue",
    "Bls.Props.C16_mulBy1",
    "Bls.Props.C16_mulBy01",
    "Bls.Props.C16_inverse",
    "Bls.Props.C16_equals"
   ],
   "note": ""
  },
  {
   "property": "C17",
   "status": "proved",
   "theorems": [
    "Bls.Props.C17_faithful",
    "Bls.Props.C17_add",
    "Bls.Props.C17_sub",
    "Bls.Props.C17_neg",
    "Bls.Props.C17_double",
    "Bls.Props.C17_mul",
    "Bls.Props.C17_square",
    "Bls.Props.C17_conjugate",
    "Bls.Props.C17_mulBy014",
    "Bls.Props.C17_inverse",
    "Bls.Props.C17_equals",
    "Bls.Props.C17_exp",
    "Bls.Props.C17_field"
   ],
   "note": ""
  },
  {
   "property": "C18",
   "status": "proved",
   "theorems": [
    "Bls.Props.C18_fq2",
    "Bls.Props.C18_fq6",
    "Bls.Props.C18_fq12"
   ],
   "note": ""
  },
  {
   "property": "C19",
   "status": "partial",
   "theorems": [
    "Bls.Props.C19_mul_aliased_false",
    "Bls.Props.C19_exp_false",
    "Bls.Props.C19_exp_actual",
    "Bls.Props.C19_exp_partial"
   ],
   "note": "Refuted (C19_exp_false, C19_mul_aliased_false); what the code computes is C19_exp_actual, and the true part (exponents 0 and 1) is C19_exp_partial."
  },
  {
   "property": "C20",
   "status": "proved",
   "theorems": [
    "Bls.Props.C20_denotes",
    "Bls.Props.C20_double",
    "Bls.Props.C20_add",
    "Bls.Props.C20_addAffine",
    "Bls.Props.C20_neg",
    "Bls.Props.C20_neg_affine",
    "Bls.Props.C20_toProjective",
    "Bls.Props.C20_toAffine",
    "Bls.Props.C20_zero",
    "Bls.Props.C20_complete"
   ],
   "note": ""
  },
  {
   "property": "C21",
   "status": "proved",
   "theorems": [
    "Bls.Props.C21_denotes",
    "Bls.Props.C21_double",
    "Bls.Props.C21_add",
    "Bls.Props.C21_addAffine",
    "Bls.Props.C21_neg_affine",
    "Bls.Props.C21_toProjective",
    "Bls.Props.C21_toAffine",
    "Bls.Props.C21_zero",
    "Bls.Props.C21_complete"
   ],
   "note": ""
  },
  {
   "property": "C22",
   "status": "proved",
   "theorems": [
    "Bls.Props.C22_g1_affine_mul",
    "Bls.Props.C22_g1_affine_mulFR",
    "Bls.Props.C22_g1_mul",
    "Bls.Props.C22_g1_mulFR",
    "Bls.Props.C22_g2_affine_mul",
    "Bls.Props.C22_g2_affine_mulFR",
    "Bls.Props.C22_g2_mul",
    "Bls.Props.C22_g2_mulFR",
    "Bls.Props.C22_g2_mulBig"
   ],
   "note": ""
  },
  {
   "property": "C23",
   "status": "proved",
   "theorems": [
    "Bls.Props.C23_g1_equal",
    "Bls.Props.C23_g1_toAffine",
    "Bls.Props.C23_g2_equal",
    "Bls.Props.C23_g2_toAffine",
    "Bls.Props.C23_publicKey_g1pubs",
    "Bls.Props.C23_publicKey_g2pubs"
   ],
   "note": "G1Projective.Equal, G2Projective.Equals, ToAffine, compressed encodings, PublicKey.Equals."
  },
  {
   "property": "C24",
   "status": "partial",
   "theorems": [
    "Bls.Props.C24_g1",
    "Bls.Props.C24_g2_actual",
    "Bls.Props.C24_g2_false"
   ],
   "note": "Proved for G1; refuted for G2 (C24_g2_false): G2Affine.Equals only compares the infinity flags, C24_g2_actual."
  },
  {
   "property": "C25",
   "status": "proved",
   "theorems": [
    "Bls.Props.C25_g1",
    "Bls.Props.C25_g2",
    "Bls.Props.C25_unchecked",
    "Bls.Props.C25_publicKey_g1pubs",
    "Bls.Props.C25_signature_g1pubs",
    "Bls.Props.C25_publicKey_g2pubs",
    "Bls.Props.C25_signature_g2pubs"
   ],
   "note": ""
  },
  {
   "property": "C26",
   "status": "proved",
   "theorems": [
    "Bls.Props.C26_g1",
    "Bls.Props.C26_g2",
    "Bls.Props.C26_subgroup",
    "Bls.Props.C26_g1_exact",
    "Bls.Props.C26_g2_exact",
    "Bls.Props.C26_publicKey_g1pubs",
    "Bls.Props.C26_signature_g1pubs",
    "Bls.Props.C26_publicKey_g2pubs",
    "Bls.Props.C26_signature_g2pubs"
   ],
   "note": ""
  },
  {
   "property": "C27",
   "status": "partial",
   "theorems": [
    "Bls.Props.C27_g2_point",
    "Bls.Props.C27_g2_exact",
    "Bls.Props.C27_g2_one",
    "Bls.Props.C27_g1",
    "Bls.Props.C27_g1_unchecked_partial",
    "Bls.Props.C27_g2_partial",
    "Bls.Props.C27_g2_unchecked_partial",
    "Bls.Props.C27_g1_unchecked_false",
    "Bls.Props.C27_g2_unchecked_false"
   ],
   "note": "Proved for DecompressG1 (all strings). Refuted for the unchecked decompressors (C27_g1_unchecked_false, C27_g2_unchecked_false); for DecompressG2 proved when both coordinates are below q, and when x has no zero coefficient (C27_g2_point). The full statement for DecompressG2 is proved equivalent to: no point of order r has its x in Fq (C27_g2_exact), which is not known."
  },
  {
   "property": "C28",
   "status": "partial",
   "theorems": [
    "Bls.Props.C28_g2_partial",
    "Bls.Props.C28_g1_actual",
    "Bls.Props.C28_g1_false",
    "Bls.Props.C28_infinity_false"
   ],
   "note": "Refuted on G1 (C28_g1_false, what happens is C28_g1_actual) and for infinity (C28_infinity_false); proved for finite G2 points."
  },
  {
   "property": "C29",
   "status": "proved",
   "theorems": [
    "Bls.Props.C29_signatures_g1pubs",
    "Bls.Props.C29_publicKeys_g1pubs",
    "Bls.Props.C29_order_g1pubs",
    "Bls.Props.C29_grouping_g1pubs",
    "Bls.Props.C29_signatures_g2pubs",
    "Bls.Props.C29_publicKeys_g2pubs",
    "Bls.Props.C29_order_g2pubs",
    "Bls.Props.C29_grouping_g2pubs"
   ],
   "note": ""
  },
  {
   "property": "C30",
   "status": "proved",
   "theorems": [
    "Bls.Props.C30_finalExponentiation",
    "Bls.Props.C30_root"
   ],
   "note": ""
  },
  {
   "property": "C31",
   "status": "proved",
   "theorems": [
    "Bls.Props.C31_product",
    "Bls.Props.C31_prepared",
    "Bls.Props.C31_pairings"
   ],
   "note": ""
  },
  {
   "property": "C32",
   "status": "proved",
   "theorems": [
    "Bls.Props.C32_smul",
    "Bls.Props.C32_mulFR",
    "Bls.Props.C32_add_left",
    "Bls.Props.C32_add_right",
    "Bls.Props.C32_congr",
    "Bls.Props.C32_compare"
   ],
   "note": ""
  },
  {
   "property": "C33",
   "status": "proved",
   "theorems": [
    "Bls.Props.C33_nondegenerate",
    "Bls.Props.C33_separates"
   ],
   "note": ""
  },
  {
   "property": "C34",
   "status": "partial",
   "theorems": [
    "Bls.Props.C34_panics",
    "Bls.Props.C34_infinity_false",
    "Bls.Props.C34_verify_g1pubs_false",
    "Bls.Props.C34_aggregate_g1pubs_false",
    "Bls.Props.C34_verify_g2pubs_false",
    "Bls.Props.C34_aggregate_g2pubs_false"
   ],
   "note": "Refuted: Pairing and CompareTwoPairings panic when an argument is the point at infinity; so do Verify on accepted encodings of infinity and the aggregate verifiers."
  },
  {
   "property": "C35",
   "status": "proved",
   "theorems": [
    "Bls.Props.C35_wire_g1pubs",
    "Bls.Props.C35_wire_g2pubs",
    "Bls.Props.C35_complete_g1pubs",
    "Bls.Props.C35_hashG2",
    "Bls.Props.C35_domain_g1pubs",
    "Bls.Props.C35_domain_total",
    "Bls.Props.C35_complete_g2pubs",
    "Bls.Props.C35_hashG1"
   ],
   "note": "For messages whose hash is a subgroup point other than infinity; C35_hashG1/C35_hashG2/C35_domain_total reduce this to C40, C41, C43."
  },
  {
   "property": "C36",
   "status": "proved",
   "theorems": [
    "Bls.Props.C36_bytes_g2pubs",
    "Bls.Props.C36_bytes_g1pubs",
    "Bls.Props.C36_exact_g1pubs",
    "Bls.Props.C36_wire_g1pubs",
    "Bls.Props.C36_domain_g1pubs",
    "Bls.Props.C36_exact_g2pubs",
    "Bls.Props.C36_wire_g2pubs"
   ],
   "note": "On points, and on strings: for g2pubs one signature string verifies for a key and message; for g1pubs the same for signatures whose x has no zero coefficient (see C27)."
  },
  {
   "property": "C37",
   "status": "proved",
   "theorems": [
    "Bls.Props.C37_common_g1pubs",
    "Bls.Props.C37_complete_g1pubs",
    "Bls.Props.C37_commonDomain_g1pubs",
    "Bls.Props.C37_common_g2pubs",
    "Bls.Props.C37_complete_g2pubs"
   ],
   "note": ""
  },
  {
   "property": "C38",
   "status": "partial",
   "theorems": [
    "Bls.Props.C38_arguments",
    "Bls.Props.C38_arguments_partial",
    "Bls.Props.C38_guards_g1pubs",
    "Bls.Props.C38_distinct_g1pubs_partial",
    "Bls.Props.C38_empty_g1pubs_false",
    "Bls.Props.C38_lengthDomain_g1pubs",
    "Bls.Props.C38_repeatDomain_g1pubs_false",
    "Bls.Props.C38_sort_determined",
    "Bls.Props.C38_compare",
    "Bls.Props.C38_guards_g2pubs",
    "Bls.Props.C38_distinct_g2pubs_partial",
    "Bls.Props.C38_empty_g2pubs_false",
    "Bls.Props.C38_sorter_perm",
    "Bls.Props.C38_sorter",
    "Bls.Props.C38_sorter_insertion"
   ],
   "note": "The guards are proved. Refuted: a batch with an empty message is always rejected (C38_empty_*_false); VerifyAggregateWithDomain has no duplicate check (C38_repeatDomain_g1pubs_false). Pairwise different non-empty messages pass (C38_distinct_*_partial). The sorting is by contract of sort.Sort, which determines its result (C38_sort_determined). VerifyAggregate leaves its arguments, in every memory (C38_arguments)."
  },
  {
   "property": "C39",
   "status": "proved",
   "theorems": [
    "Bls.Props.C39_exact_g1pubs",
    "Bls.Props.C39_domain_g1pubs",
    "Bls.Props.C39_exact_g2pubs"
   ],
   "note": ""
  },
  {
   "property": "C40",
   "status": "proved",
   "theorems": [
    "Bls.Props.C40_swu",
    "Bls.Props.C40_no_panic",
    "Bls.Props.C40_isogeny",
    "Bls.Props.C40_hashG1"
   ],
   "note": "Excluded inputs (colliding mapped points, kernel of the isogeny) are stated as hypotheses of C40_hashG1; absence of panics holds for all inputs. What happens there is C63."
  },
  {
   "property": "C41",
   "status": "proved",
   "theorems": [
    "Bls.Props.C41_swu",
    "Bls.Props.C41_no_panic",
    "Bls.Props.C41_hashG2",
    "Bls.Props.C41_psi"
   ],
   "note": "Excluded inputs (colliding mapped points) are a hypothesis of C41_hashG2; the isogeny's denominator is proved never to vanish; absence of panics holds for all inputs. What happens there is C63."
  },
  {
   "property": "C42",
   "status": "proved",
   "theorems": [
    "Bls.Props.C42_clearH",
    "Bls.Props.C42_clearH2",
    "Bls.Props.C42_psi",
    "Bls.Props.C42_scaleByCofactor_G1",
    "Bls.Props.C42_scaleByCofactor_G2"
   ],
   "note": ""
  },
  {
   "property": "C43",
   "status": "proved",
   "theorems": [
    "Bls.Props.C43_hashG2WithDomain"
   ],
   "note": ""
  },
  {
   "property": "C44",
   "status": "partial",
   "theorems": [
    "Bls.Props.C44_fq_mulBits_actual",
    "Bls.Props.C44_fq_mulBytes_actual",
    "Bls.Props.C44_hashFQ_actual",
    "Bls.Props.C44_fq_mulBits_false",
    "Bls.Props.C44_fq_mulBytes_false",
    "Bls.Props.C44_fr_mulBits_actual",
    "Bls.Props.C44_fr_mulBytes_actual",
    "Bls.Props.C44_hashFR_actual",
    "Bls.Props.C44_fr_mulBits_false",
    "Bls.Props.C44_fr_mulBytes_false",
    "Bls.Props.C44_fq2_mulBits",
    "Bls.Props.C44_hashFQ2"
   ],
   "note": "Refuted for FQ/FR.MulBits and MulBytes (theorems *_false, with what the code computes instead in *_actual); proved for FQ2.MulBits and HashFQ2."
  },
  {
   "property": "C45",
   "status": "partial",
   "theorems": [
    "Bls.Props.C45_frReprToFR",
    "Bls.Props.C45_frReprToFR_changes",
    "Bls.Props.C45_frReprToFR_false",
    "Bls.Props.C45_keyFromFQRepr_false",
    "Bls.Props.C45_assign_partial",
    "Bls.Props.C45_pure_partial"
   ],
   "note": "Refuted for FRReprToFR and KeyFromFQRepr (C45_*_false; exactly what happens to the argument is C45_frReprToFR and C45_frReprToFR_changes). Proved for the other FR operations, in a memory model with pointers, after any history of calls."
  },
  {
   "property": "C46",
   "status": "partial",
   "theorems": [
    "Bls.Props.C46_constants_partial",
    "Bls.Props.C46_constants_sqrt",
    "Bls.Props.C46_exp_sqrts",
    "Bls.Props.C46_exp_partial",
    "Bls.Props.C46_exp_false",
    "Bls.Props.C46_legendre_partial",
    "Bls.Props.C46_hashFR_sqrts",
    "Bls.Props.C46_hashFR_partial",
    "Bls.Props.C46_others",
    "Bls.Props.C46_sqrt_value",
    "Bls.Props.C46_sqrt_false"
   ],
   "note": "Refuted for FR.Sqrt, which overwrites bigOneFR and returns no square root (C46_sqrt_false, C46_exp_false); the exact effect of k calls of Sqrt on Exp and HashFR is C46_exp_sqrts, C46_hashFR_sqrts. Proved for histories without Sqrt, and for Legendre and all other calls with it."
  },
  {
   "property": "C47",
   "status": "partial",
   "theorems": [
    "Bls.Props.C47_randFQ",
    "Bls.Props.C47_randFQ2",
    "Bls.Props.C47_randFQ12",
    "Bls.Props.C47_randFR",
    "Bls.Props.C47_randKey",
    "Bls.Props.C47_randG1_partial",
    "Bls.Props.C47_randG1_false",
    "Bls.Props.C47_randG2_partial",
    "Bls.Props.C47_randG2_false",
    "Bls.Props.C47_errors"
   ],
   "note": "Proved for RandFQ, RandFQ2, RandFQ6, RandFQ12, RandFR and RandKey. Refuted for RandG1 and RandG2 (C47_randG1_false, C47_randG2_false): they can return the identity, because the check is made before multiplying by the cofactor; membership in the subgroup is proved."
  },
  {
   "property": "C48",
   "status": "proved",
   "theorems": [
    "Bls.Props.C48_orders",
    "Bls.Props.C48_cyclic",
    "Bls.Props.C48_subgroup"
   ],
   "note": ""
  },
  {
   "property": "C49",
   "status": "proved",
   "theorems": [
    "Bls.Props.C49_add_g1pubs",
    "Bls.Props.C49_injective_g1pubs",
    "Bls.Props.C49_add_g2pubs",
    "Bls.Props.C49_injective_g2pubs"
   ],
   "note": ""
  },
  {
   "property": "C50",
   "status": "proved",
   "theorems": [
    "Bls.Props.C50_hashSecretKey",
    "Bls.Props.C50_deriveSecretKey_g1pubs",
    "Bls.Props.C50_deriveSecretKey_g2pubs"
   ],
   "note": ""
  },
  {
   "property": "C51",
   "status": "proved",
   "theorems": [
    "Bls.Props.C51_swEncodeG2"
   ],
   "note": ""
  },
  {
   "property": "C52",
   "status": "proved",
   "theorems": [
    "Bls.Props.C52_moduli",
    "Bls.Props.C52_montgomery",
    "Bls.Props.C52_globals",
    "Bls.Props.C52_field",
    "Bls.Props.C52_curve",
    "Bls.Props.C52_frobenius",
    "Bls.Props.C52_isogeny11",
    "Bls.Props.C52_isogeny3",
    "Bls.Props.C52_psi",
    "Bls.Props.C52_swenc"
   ],
   "note": ""
  },
  {
   "property": "C53",
   "status": "partial",
   "theorems": [
    "Bls.Props.C53_results_partial",
    "Bls.Props.C53_toRepr_partial",
    "Bls.Props.C53_sqrt_false",
    "Bls.Props.C53_frReprToFR_false",
    "Bls.Props.C53_getFRElement_false",
    "Bls.Props.C53_fq12_partial",
    "Bls.Props.C53_fq12One_false",
    "Bls.Props.C53_points_partial",
    "Bls.Props.C53_packagePoints_partial",
    "Bls.Props.C53_g2ToAffine_false"
   ],
   "note": "Scalar field: proved for Copy, Exp, Inverse, MulBits, MulBytes, HashFR, ToRepr; refuted for Sqrt, FRReprToFR and GetFRElement (C53_*_false). FQ12: proved for all programs that do not use FQ12Zero and FQ12One as receivers (C53_fq12_partial); refuted for these (C53_fq12One_false). Points, keys and signatures: proved for all programs that do not call SetRawBytes on an infinity G2Affine (C53_points_partial, C53_packagePoints_partial); refuted otherwise (C53_g2ToAffine_false)."
  },
  {
   "property": "C54",
   "status": "proved",
   "theorems": [
    "Bls.Props.C54_values",
    "Bls.Props.C54_field",
    "Bls.Props.C54_compareTwoPairings"
   ],
   "note": "All programs; C54_field excludes MillerLoop and Pairing, which have no description by field operations alone (their values are C30-C33)."
  },
  {
   "property": "C55",
   "status": "proved",
   "theorems": [
    "Bls.Props.C55_repr",
    "Bls.Props.C55_text",
    "Bls.Props.C55_fq",
    "Bls.Props.C55_fr",
    "Bls.Props.C55_fq2",
    "Bls.Props.C55_fq6",
    "Bls.Props.C55_fq12",
    "Bls.Props.C55_g1",
    "Bls.Props.C55_g2",
    "Bls.Props.C55_g1pubs",
    "Bls.Props.C55_g2pubs"
   ],
   "note": ""
  },
  {
   "property": "C56",
   "status": "proved",
   "theorems": [
    "Bls.Props.C56_g1pubs",
    "Bls.Props.C56_unwrap_g1pubs",
    "Bls.Props.C56_g2pubs",
    "Bls.Props.C56_unwrap_g2pubs"
   ],
   "note": ""
  },
  {
   "property": "C57",
   "status": "partial",
   "theorems": [
    "Bls.Props.C57_points_partial"
   ],
   "note": "All programs except those that call SetRawBytes on a G2Affine that is infinity. For these it is false: G2Projective.ToAffine returns the package variable G2AffineZero itself (C53_g2ToAffine_false). Coordinates (FQ, FQ2) are values in this model; the package variables are not receivers."
  },
  {
   "property": "C58",
   "status": "partial",
   "theorems": [
    "Bls.Props.C58_results_partial",
    "Bls.Props.C58_finishes_partial",
    "Bls.Props.C58_noRace_partial",
    "Bls.Props.C58_unchanged_partial",
    "Bls.Props.C58_noRace_false",
    "Bls.Props.C58_results_false"
   ],
   "note": "For goroutines that do not call SetRawBytes on a G2Affine at infinity. Without that it is false (C58_noRace_false, C58_results_false): ToAffine of a G2Projective at infinity returns the package variable itself."
  },
  {
   "property": "C59",
   "status": "partial",
   "theorems": [
    "Bls.Props.C59_memory",
    "Bls.Props.C59_results",
    "Bls.Props.C59_bp_partial",
    "Bls.Props.C59_bp_false"
   ],
   "note": "Memory, and results from arguments alone: proved for all functions. BP: kept by MACWithCarry, SubWithBorrow, AddWithCarry and MontReduce; refuted for MultiplyFQRepr, AddNoCarry and SubNoBorrow (C59_bp_false), which have no frame and overwrite it."
  },
  {
   "property": "C60",
   "status": "proved",
   "theorems": [
    "Bls.Props.C60_text",
    "Bls.Props.C60_any"
   ],
   "note": ""
  },
  {
   "property": "C61",
   "status": "proved",
   "theorems": [
    "Bls.Props.C61_frame",
    "Bls.Props.C61_readOnly",
    "Bls.Props.C61_program"
   ],
   "note": ""
  },
  {
   "property": "C62",
   "status": "proved",
   "theorems": [
    "Bls.Props.C62_rogue_g1pubs",
    "Bls.Props.C62_rogue_g2pubs",
    "Bls.Props.C62_rogue_domain_g1pubs",
    "Bls.Props.C62_rogue_repeated_g1pubs"
   ],
   "note": ""
  },
  {
   "property": "C63",
   "status": "proved",
   "theorems": [
    "Bls.Props.C63_opposite_g1",
    "Bls.Props.C63_kernel_g1",
    "Bls.Props.C63_zero_g1",
    "Bls.Props.C63_equal_g1",
    "Bls.Props.C63_iff_g1",
    "Bls.Props.C63_not_always_g1",
    "Bls.Props.C63_opposite_g2",
    "Bls.Props.C63_zero_g2",
    "Bls.Props.C63_not_always_g2"
   ],
   "note": "HashG1: all cases, up to infinity when the points are equal. HashG2: opposite points for all hash functions and messages, equal points in the case of all field elements 0."
  },
  {
   "property": "C64",
   "status": "proved",
   "theorems": [
    "Bls.Props.C64_bytes_g1pubs",
    "Bls.Props.C64_bytes_g2pubs",
    "Bls.Props.C64_signBytes_g1pubs",
    "Bls.Props.C64_signBytes_g2pubs",
    "Bls.Props.C64_unchecked",
    "Bls.Props.C64_pairing",
    "Bls.Props.C64_pairing_subgroup",
    "Bls.Props.C64_compare",
    "Bls.Props.C64_verify_g1pubs",
    "Bls.Props.C64_common_g1pubs",
    "Bls.Props.C64_verifyWithDomain_g1pubs",
    "Bls.Props.C64_commonDomain_g1pubs",
    "Bls.Props.C64_aggregate_g1pubs",
    "Bls.Props.C64_aggregateDomain_g1pubs",
    "Bls.Props.C64_sign_g1pubs",
    "Bls.Props.C64_verify_g2pubs",
    "Bls.Props.C64_common_g2pubs",
    "Bls.Props.C64_aggregate_g2pubs",
    "Bls.Props.C64_sign_g2pubs"
   ],
   "note": "For hashes that are points; what HashG1 and HashG2 return otherwise is C63. The panics themselves refute C34."
  },
  {
   "property": "C65",
   "status": "proved",
   "theorems": [
    "Bls.Props.C65_randFR",
    "Bls.Props.C65_randG1",
    "Bls.Props.C65_randG1_one",
    "Bls.Props.C65_randG1_ends",
    "Bls.Props.C65_randG2",
    "Bls.Props.C65_randG2_one",
    "Bls.Props.C65_randG2_ends",
    "Bls.Props.C65_publicKey_g1pubs",
    "Bls.Props.C65_publicKey_g2pubs"
   ],
   "note": ""
  },
  {
   "property": "C66",
   "status": "proved",
   "theorems": [
    "Bls.Props.C66_transfer_g1pubs",
    "Bls.Props.C66_transfer_g2pubs",
    "Bls.Props.C66_domain_g1pubs",
    "Bls.Props.C66_toDomain_g1pubs",
    "Bls.Props.C66_fromDomain_g1pubs"
   ],
   "note": ""
  },
  {
   "property": "C67",
   "status": "proved",
   "theorems": [
    "Bls.Props.C67_observed",
    "Bls.Props.C67_counts",
    "Bls.Props.C67_privToPub_g1pubs",
    "Bls.Props.C67_privToPub_g2pubs",
    "Bls.Props.C67_sign_g1pubs",
    "Bls.Props.C67_sign_g2pubs",
    "Bls.Props.C67_signWithDomain_g1pubs",
    "Bls.Props.C67_not_constant"
   ],
   "note": "Point operations only; which field operations run inside them is not logged. C67_not_constant: the number of operations is not the same for all keys."
  },
  {
   "property": "C68",
   "status": "partial",
   "theorems": [
    "Bls.Props.C68_results_partial",
    "Bls.Props.C68_finishes_partial",
    "Bls.Props.C68_noRace_partial",
    "Bls.Props.C68_unchanged_partial",
    "Bls.Props.C68_noRace_false",
    "Bls.Props.C68_results_false"
   ],
   "note": "Without Sqrt: results, termination, absence of races and unchanged package variables under every schedule. With Sqrt it is false: Sqrt overwrites the limbs of frOne, shared with bigOneFR (C68_noRace_false, C68_results_false)."
  },
  {
   "property": "C69",
   "status": "proved",
   "theorems": [
    "Bls.Props.C69_results",
    "Bls.Props.C69_finishes",
    "Bls.Props.C69_noRace",
    "Bls.Props.C69_unchanged"
   ],
   "note": "All programs, including the pairing functions; points are values, and the two package variables are not receivers (as in C54)."
  },
  {
   "property": "C70",
   "status": "proved",
   "theorems": [
    "Bls.Props.C70_progress_g1pubs",
    "Bls.Props.C70_agree_g1pubs",
    "Bls.Props.C70_verify_g1pubs",
    "Bls.Props.C70_common_g1pubs",
    "Bls.Props.C70_progress_g2pubs",
    "Bls.Props.C70_agree_g2pubs",
    "Bls.Props.C70_verify_g2pubs",
    "Bls.Props.C70_common_g2pubs",
    "Bls.Props.C70_unique_g2pubs",
    "Bls.Props.C70_unique_g1pubs",
    "Bls.Props.C70_case_g1pubs",
    "Bls.Props.C70_case_g2pubs"
   ],
   "note": "All networks and strings; C70_unique_g1pubs has the condition on the x coordinate that C27 needs for G2."
  },
  {
   "property": "C71",
   "status": "proved",
   "theorems": [
    "Bls.Props.C71_split",
    "Bls.Props.C71_verify_g2pubs",
    "Bls.Props.C71_aggregate_g2pubs",
    "Bls.Props.C71_verify_g1pubs",
    "Bls.Props.C71_cofactorPoint",
    "Bls.Props.C71_second_g2pubs",
    "Bls.Props.C71_second_g1pubs"
   ],
   "note": "Points of the first curve only: signatures of g2pubs and public keys of g1pubs."
  },
  {
   "property": "C72",
   "status": "proved",
   "theorems": [
    "Bls.Props.C72_shares",
    "Bls.Props.C72_secrecy",
    "Bls.Props.C72_g1pubs",
    "Bls.Props.C72_domain_g1pubs",
    "Bls.Props.C72_g2pubs"
   ],
   "note": ""
  },
  {
   "property": "C73",
   "status": "proved",
   "theorems": [
    "Bls.Props.C73_own_g1",
    "Bls.Props.C73_group_g1",
    "Bls.Props.C73_subgroup_g1",
    "Bls.Props.C73_subgroup_alone_g1",
    "Bls.Props.C73_stays_g1",
    "Bls.Props.C73_late_g1",
    "Bls.Props.C73_aggregate_g1",
    "Bls.Props.C73_own_g2",
    "Bls.Props.C73_group_g2",
    "Bls.Props.C73_subgroup_g2",
    "Bls.Props.C73_subgroup_alone_g2",
    "Bls.Props.C73_stays_g2",
    "Bls.Props.C73_late_g2",
    "Bls.Props.C73_aggregate_g2"
   ],
   "note": ""
  },
  {
   "property": "C74",
   "status": "proved",
   "theorems": [
    "Bls.Props.C74_check_g1pubs",
    "Bls.Props.C74_binding_g1pubs",
    "Bls.Props.C74_dkg_g1pubs",
    "Bls.Props.C74_dkgDomain_g1pubs",
    "Bls.Props.C74_check_g2pubs",
    "Bls.Props.C74_binding_g2pubs",
    "Bls.Props.C74_dkg_g2pubs"
   ],
   "note": ""
  },
  {
   "property": "C75",
   "status": "proved",
   "theorems": [
    "Bls.Props.C75_only_g1",
    "Bls.Props.C75_only_g2",
    "Bls.Props.C75_hashG1",
    "Bls.Props.C75_hashG2",
    "Bls.Props.C75_accept_g1pubs",
    "Bls.Props.C75_accept_g2pubs",
    "Bls.Props.C75_image_g1",
    "Bls.Props.C75_image_g2"
   ],
   "note": ""
  },
  {
   "property": "C76",
   "status": "proved",
   "theorems": [
    "Bls.Props.C76_weights",
    "Bls.Props.C76_sound_g1pubs",
    "Bls.Props.C76_complete_g1pubs",
    "Bls.Props.C76_unweighted_g1pubs",
    "Bls.Props.C76_soundDomain_g1pubs",
    "Bls.Props.C76_completeDomain_g1pubs",
    "Bls.Props.C76_unweightedDomain_g1pubs",
    "Bls.Props.C76_sound_g2pubs",
    "Bls.Props.C76_complete_g2pubs",
    "Bls.Props.C76_unweighted_g2pubs"
   ],
   "note": ""
  },
  {
   "property": "C77",
   "status": "proved",
   "theorems": [
    "Bls.Props.C77_only",
    "Bls.Props.C77_key_g1pubs",
    "Bls.Props.C77_keys_g1pubs",
    "Bls.Props.C77_publicKey_g1pubs",
    "Bls.Props.C77_key_g2pubs",
    "Bls.Props.C77_keys_g2pubs",
    "Bls.Props.C77_publicKey_g2pubs"
   ],
   "note": ""
  },
  {
   "property": "C78",
   "status": "proved",
   "theorems": [
    "Bls.Props.C78_neg",
    "Bls.Props.C78_fibre",
    "Bls.Props.C78_infinity",
    "Bls.Props.C78_image",
    "Bls.Props.C78_special"
   ],
   "note": ""
  },
  {
   "property": "C79",
   "status": "proved",
   "theorems": [
    "Bls.Props.C79_unblind_g1pubs",
    "Bls.Props.C79_check_g1pubs",
    "Bls.Props.C79_blind_g1pubs",
    "Bls.Props.C79_sent_g1pubs",
    "Bls.Props.C79_unblindDomain_g1pubs",
    "Bls.Props.C79_checkDomain_g1pubs",
    "Bls.Props.C79_blindDomain_g1pubs",
    "Bls.Props.C79_sentDomain_g1pubs",
    "Bls.Props.C79_unblind_g2pubs",
    "Bls.Props.C79_check_g2pubs",
    "Bls.Props.C79_blind_g2pubs",
    "Bls.Props.C79_sent_g2pubs"
   ],
   "note": ""
  },
  {
   "property": "C80",
   "status": "proved",
   "theorems": [
    "Bls.Props.C80_mask_g1pubs",
    "Bls.Props.C80_open_g1pubs",
    "Bls.Props.C80_scalars_g1pubs",
    "Bls.Props.C80_shared_g1pubs",
    "Bls.Props.C80_maskDomain_g1pubs",
    "Bls.Props.C80_openDomain_g1pubs",
    "Bls.Props.C80_scalarsDomain_g1pubs",
    "Bls.Props.C80_sharedDomain_g1pubs",
    "Bls.Props.C80_mask_g2pubs",
    "Bls.Props.C80_open_g2pubs",
    "Bls.Props.C80_scalars_g2pubs",
    "Bls.Props.C80_shared_g2pubs"
   ],
   "note": ""
  },
  {
   "property": "C81",
   "status": "proved",
   "theorems": [
    "Bls.Props.C81_two_g1pubs",
    "Bls.Props.C81_twoInj_g1pubs",
    "Bls.Props.C81_two_g2pubs",
    "Bls.Props.C81_twoInj_g2pubs",
    "Bls.Props.C81_three",
    "Bls.Props.C81_threeInj"
   ],
   "note": ""
  },
  {
   "property": "C82",
   "status": "proved",
   "theorems": [
    "Bls.Props.C82_values",
    "Bls.Props.C82_field",
    "Bls.Props.C82_write",
    "Bls.Props.C82_back",
    "Bls.Props.C82_twice",
    "Bls.Props.C82_package"
   ],
   "note": ""
  },
  {
   "property": "C83",
   "status": "proved",
   "theorems": [
    "Bls.Props.C83_asks_g1",
    "Bls.Props.C83_asks_g2",
    "Bls.Props.C83_asks_key",
    "Bls.Props.C83_asks_domain",
    "Bls.Props.C83_separate",
    "Bls.Props.C83_separate_key",
    "Bls.Props.C83_separate_domain",
    "Bls.Props.C83_separate_cross",
    "Bls.Props.C83_separate_34",
    "Bls.Props.C83_free",
    "Bls.Props.C83_joint",
    "Bls.Props.C83_joint_domain",
    "Bls.Props.C83_shared",
    "Bls.Props.C83_key"
   ],
   "note": ""
  },
  {
   "property": "C84",
   "status": "proved",
   "theorems": [
    "Bls.Props.C84_groups",
    "Bls.Props.C84_same",
    "Bls.Props.C84_closed"
   ],
   "note": ""
  },
  {
   "property": "C85",
   "status": "proved",
   "theorems": [
    "Bls.Props.C85_g1pubs",
    "Bls.Props.C85_g2pubs"
   ],
   "note": ""
  },
  {
   "property": "C86",
   "status": "proved",
   "theorems": [
    "Bls.Props.C86_calc",
    "Bls.Props.C86_same",
    "Bls.Props.C86_closed"
   ],
   "note": ""
  },
  {
   "property": "C87",
   "status": "proved",
   "theorems": [
    "Bls.Props.C87_fq",
    "Bls.Props.C87_fq_injective",
    "Bls.Props.C87_fq_varies",
    "Bls.Props.C87_fr",
    "Bls.Props.C87_fr_injective",
    "Bls.Props.C87_fr_varies",
    "Bls.Props.C87_toAffine"
   ],
   "note": ""
  },
  {
   "property": "C88",
   "status": "proved",
   "theorems": [
    "Bls.Props.C88_forgery_g1pubs",
    "Bls.Props.C88_scalars_g1pubs",
    "Bls.Props.C88_possession_g1pubs",
    "Bls.Props.C88_forgeryDomain_g1pubs",
    "Bls.Props.C88_scalarsDomain_g1pubs",
    "Bls.Props.C88_possessionDomain_g1pubs",
    "Bls.Props.C88_forgery_g2pubs",
    "Bls.Props.C88_scalars_g2pubs",
    "Bls.Props.C88_possession_g2pubs",
    "Bls.Props.C88_aggregate_g1pubs",
    "Bls.Props.C88_aggregateDomain_g1pubs",
    "Bls.Props.C88_aggregate_g2pubs",
    "Bls.Props.C88_common_g1pubs",
    "Bls.Props.C88_scalarsOn_g1pubs",
    "Bls.Props.C88_commonDomain_g1pubs",
    "Bls.Props.C88_scalarsOnDomain_g1pubs",
    "Bls.Props.C88_common_g2pubs",
    "Bls.Props.C88_scalarsOn_g2pubs"
   ],
   "note": ""
  },
  {
   "property": "C89",
   "status": "proved",
   "theorems": [
    "Bls.Props.C89_reads_g1pubs",
    "Bls.Props.C89_keys_g1pubs",
    "Bls.Props.C89_key_g1pubs",
    "Bls.Props.C89_error_g1pubs",
    "Bls.Props.C89_reads_g2pubs",
    "Bls.Props.C89_keys_g2pubs",
    "Bls.Props.C89_key_g2pubs",
    "Bls.Props.C89_error_g2pubs",
    "Bls.Props.C89_randFR",
    "Bls.Props.C89_randFQ",
    "Bls.Props.C89_randG1_outcomes",
    "Bls.Props.C89_randG1",
    "Bls.Props.C89_randG1_all",
    "Bls.Props.C89_randG2_outcomes",
    "Bls.Props.C89_randG2",
    "Bls.Props.C89_randG2_all"
   ],
   "note": ""
  }
 ]
}