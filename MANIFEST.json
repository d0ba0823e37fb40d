{
 "claims": [
  {
   "property": "C01",
   "status": "proved",
   "theorems": [
    "Verif.Props.C01_keypair",
    "Verif.Props.C01_diverges",
    "Verif.Props.C01_terminates"
   ],
   "note": ""
  },
  {
   "property": "C02",
   "status": "proved",
   "theorems": [
    "Verif.Props.C02_enc",
    "Verif.Props.C02_diverges",
    "Verif.Props.C02_terminates"
   ],
   "note": ""
  },
  {
   "property": "C03",
   "status": "proved",
   "theorems": [
    "Verif.Props.C03_dec",
    "Verif.Props.C03_diverges",
    "Verif.Props.C03_terminates"
   ],
   "note": ""
  },
  {
   "property": "C04",
   "status": "proved",
   "theorems": [
    "Verif.Props.C04_correct",
    "Verif.Props.C04_pke_exact"
   ],
   "note": ""
  },
  {
   "property": "C05",
   "status": "proved",
   "theorems": [
    "Verif.Props.C05_implicit_rejection"
   ],
   "note": ""
  },
  {
   "property": "C06",
   "status": "proved",
   "theorems": [
    "Verif.Props.C06_keypair",
    "Verif.Props.C06_enc",
    "Verif.Props.C06_dec"
   ],
   "note": ""
  },
  {
   "property": "C07",
   "status": "proved",
   "theorems": [
    "Verif.Props.C07_keypair",
    "Verif.Props.C07_enc",
    "Verif.Props.C07_dec"
   ],
   "note": ""
  },
  {
   "property": "C08",
   "status": "proved",
   "theorems": [
    "Verif.Props.C08_keypair",
    "Verif.Props.C08_public_seed"
   ],
   "note": ""
  },
  {
   "property": "C09",
   "status": "proved",
   "theorems": [
    "Verif.Props.C09_enc"
   ],
   "note": ""
  },
  {
   "property": "C10",
   "status": "proved",
   "theorems": [
    "Verif.Props.C10_dec"
   ],
   "note": ""
  },
  {
   "property": "C11",
   "status": "proved",
   "theorems": [
    "Verif.Props.C11_layout"
   ],
   "note": ""
  },
  {
   "property": "C12",
   "status": "proved",
   "theorems": [
    "Verif.Props.C12_ntt_multiplication",
    "Verif.Props.C12_basemul"
   ],
   "note": ""
  },
  {
   "property": "C13",
   "status": "proved",
   "theorems": [
    "Verif.Props.C13_poly_ntt",
    "Verif.Props.C13_residue",
    "Verif.Props.C13_invntt_ntt",
    "Verif.Props.C13_invntt",
    "Verif.Props.C13_inverse"
   ],
   "note": ""
  },
  {
   "property": "C14",
   "status": "proved",
   "theorems": [
    "Verif.Props.C14_keypair",
    "Verif.Props.C14_enc",
    "Verif.Props.C14_dec",
    "Verif.Props.C14_ntt",
    "Verif.Props.C14_poly_add",
    "Verif.Props.C14_poly_sub"
   ],
   "note": ""
  },
  {
   "property": "C15",
   "status": "proved",
   "theorems": [
    "Verif.Props.C15_montgomery_reduce",
    "Verif.Props.C15_montgomery_reduce_congr",
    "Verif.Props.C15_barrett_reduce"
   ],
   "note": ""
  },
  {
   "property": "C16",
   "status": "proved",
   "theorems": [
    "Verif.Props.C16_poly_tobytes",
    "Verif.Props.C16_poly_frombytes",
    "Verif.Props.C16_roundtrip_poly",
    "Verif.Props.C16_roundtrip_bytes",
    "Verif.Props.C16_roundtrip_polyvec",
    "Verif.Props.C16_layout"
   ],
   "note": ""
  },
  {
   "property": "C17",
   "status": "proved",
   "theorems": [
    "Verif.Props.C17_poly_compress",
    "Verif.Props.C17_polyvec_compress"
   ],
   "note": ""
  },
  {
   "property": "C18",
   "status": "proved",
   "theorems": [
    "Verif.Props.C18_poly_decompress",
    "Verif.Props.C18_polyvec_decompress",
    "Verif.Props.C18_compress_decompress",
    "Verif.Props.C18_decompress_compress",
    "Verif.Props.C18_poly_roundtrip"
   ],
   "note": ""
  },
  {
   "property": "C19",
   "status": "proved",
   "theorems": [
    "Verif.Props.C19_bit",
    "Verif.Props.C19_message",
    "Verif.Props.C19_tight",
    "Verif.Props.C19_tight_code"
   ],
   "note": ""
  },
  {
   "property": "C20",
   "status": "proved",
   "theorems": [
    "Verif.Props.C20_cbd_eta1",
    "Verif.Props.C20_cbd_eta2",
    "Verif.Props.C20_distribution",
    "Verif.Props.C20_distribution_code",
    "Verif.Props.C20_distribution_code3"
   ],
   "note": ""
  },
  {
   "property": "C21",
   "status": "proved",
   "theorems": [
    "Verif.Props.C21_rej_uniform",
    "Verif.Props.C21_resume"
   ],
   "note": ""
  },
  {
   "property": "C22",
   "status": "proved",
   "theorems": [
    "Verif.Props.C22_gen_matrix",
    "Verif.Props.C22_diverges",
    "Verif.Props.C22_block_independent",
    "Verif.Props.C22_sampleNTT_eq"
   ],
   "note": ""
  },
  {
   "property": "C23",
   "status": "proved",
   "theorems": [
    "Verif.Props.C23_permutation",
    "Verif.Props.C23_round_constants"
   ],
   "note": ""
  },
  {
   "property": "C24",
   "status": "proved",
   "theorems": [
    "Verif.Props.C24_shake128",
    "Verif.Props.C24_shake256",
    "Verif.Props.C24_shake128_once",
    "Verif.Props.C24_shake256_once"
   ],
   "note": ""
  },
  {
   "property": "C25",
   "status": "proved",
   "theorems": [
    "Verif.Props.C25_shake128",
    "Verif.Props.C25_shake256",
    "Verif.Props.C25_prefix",
    "Verif.Props.C25_blocks_skip"
   ],
   "note": ""
  },
  {
   "property": "C26",
   "status": "proved",
   "theorems": [
    "Verif.Props.C26_shake128",
    "Verif.Props.C26_shake256",
    "Verif.Props.C26_sha3_256",
    "Verif.Props.C26_sha3_512",
    "Verif.Props.C26_lengths"
   ],
   "note": ""
  },
  {
   "property": "C27",
   "status": "proved",
   "theorems": [
    "Verif.Props.C27_verify"
   ],
   "note": ""
  },
  {
   "property": "C28",
   "status": "proved",
   "theorems": [
    "Verif.Props.C28_cmov",
    "Verif.Props.C28_cmov_int16"
   ],
   "note": ""
  },
  {
   "property": "C29",
   "status": "proved",
   "theorems": [
    "Verif.Props.C29_returns_full",
    "Verif.Props.C29_returns",
    "Verif.Props.C29_aborts",
    "Verif.Props.C29_waits",
    "Verif.Props.C29_dev_returns_full",
    "Verif.Props.C29_win"
   ],
   "note": ""
  },
  {
   "property": "C30",
   "status": "proved",
   "theorems": [
    "Verif.Props.C30_keypair",
    "Verif.Props.C30_enc",
    "Verif.Props.C30_abort"
   ],
   "note": ""
  },
  {
   "property": "C31",
   "status": "proved",
   "theorems": [
    "Verif.Props.C31_same_ciphertext",
    "Verif.Props.C31_accepted"
   ],
   "note": ""
  },
  {
   "property": "C32",
   "status": "proved",
   "theorems": [
    "Verif.Props.C32_unpack_pack_pk",
    "Verif.Props.C32_pack_pk_injective",
    "Verif.Props.C32_unpack_pack_ciphertext"
   ],
   "note": ""
  },
  {
   "property": "C33",
   "status": "proved",
   "theorems": [
    "Verif.Props.C33_poly_ntt",
    "Verif.Props.C33_poly_ntt_wide",
    "Verif.Props.C33_agrees_with_ref"
   ],
   "note": ""
  },
  {
   "property": "C34",
   "status": "proved",
   "theorems": [
    "Verif.Props.C34_poly_invntt",
    "Verif.Props.C34_all_inputs",
    "Verif.Props.C34_invntt_ntt"
   ],
   "note": ""
  },
  {
   "property": "C35",
   "status": "proved",
   "theorems": [
    "Verif.Props.C35_basemul",
    "Verif.Props.C35_bound_needs_strict",
    "Verif.Props.C35_basemul_q",
    "Verif.Props.C35_ntt_multiplication",
    "Verif.Props.C35_basemul_acc"
   ],
   "note": ""
  },
  {
   "property": "C36",
   "status": "proved",
   "theorems": [
    "Verif.Props.C36_poly_reduce",
    "Verif.Props.C36_poly_tomont",
    "Verif.Props.C36_poly_add_sub",
    "Verif.Props.C36_poly_nttunpack"
   ],
   "note": ""
  },
  {
   "property": "C37",
   "status": "proved",
   "theorems": [
    "Verif.Props.C37_poly_tobytes",
    "Verif.Props.C37_poly_frombytes",
    "Verif.Props.C37_roundtrip",
    "Verif.Props.C37_agrees_with_ref"
   ],
   "note": ""
  },
  {
   "property": "C38",
   "status": "proved",
   "theorems": [
    "Verif.Props.C38_poly_compress",
    "Verif.Props.C38_polyvec_compress",
    "Verif.Props.C38_spill_needed"
   ],
   "note": ""
  },
  {
   "property": "C39",
   "status": "proved",
   "theorems": [
    "Verif.Props.C39_poly_decompress",
    "Verif.Props.C39_polyvec_decompress",
    "Verif.Props.C39_over_needed"
   ],
   "note": ""
  },
  {
   "property": "C40",
   "status": "proved",
   "theorems": [
    "Verif.Props.C40_poly_frommsg",
    "Verif.Props.C40_poly_tomsg",
    "Verif.Props.C40_message"
   ],
   "note": ""
  },
  {
   "property": "C41",
   "status": "proved",
   "theorems": [
    "Verif.Props.C41_cbd_eta1",
    "Verif.Props.C41_cbd_eta2",
    "Verif.Props.C41_over_needed"
   ],
   "note": ""
  },
  {
   "property": "C42",
   "status": "proved",
   "theorems": [
    "Verif.Props.C42_verify",
    "Verif.Props.C42_cmov"
   ],
   "note": ""
  },
  {
   "property": "C43",
   "status": "proved",
   "theorems": [
    "Verif.Props.C43_permutation4",
    "Verif.Props.C43_agrees_with_ref",
    "Verif.Props.C43_alignment"
   ],
   "note": ""
  },
  {
   "property": "C44",
   "status": "proved",
   "theorems": [
    "Verif.Props.C44_shake128x4",
    "Verif.Props.C44_shake256x4",
    "Verif.Props.C44_reads_past_input"
   ],
   "note": ""
  },
  {
   "property": "C45",
   "status": "proved",
   "theorems": [
    "Verif.Props.C45_rej_uniform_avx",
    "Verif.Props.C45_agrees_with_ref",
    "Verif.Props.C45_scalar",
    "Verif.Props.C45_scalar_underflow"
   ],
   "note": ""
  },
  {
   "property": "C46",
   "status": "proved",
   "theorems": [
    "Verif.Props.C46_gen_matrix",
    "Verif.Props.C46_diverges"
   ],
   "note": ""
  },
  {
   "property": "C47",
   "status": "proved",
   "theorems": [
    "Verif.Props.C47_getnoise_eta1_4x",
    "Verif.Props.C47_getnoise_eta1122_4x",
    "Verif.Props.C47_getnoise_eta2",
    "Verif.Props.C47_getnoise_eta1_uninit"
   ],
   "note": ""
  },
  {
   "property": "C48",
   "status": "proved",
   "theorems": [
    "Verif.Props.C48_keypair",
    "Verif.Props.C48_diverges",
    "Verif.Props.C48_terminates"
   ],
   "note": ""
  },
  {
   "property": "C49",
   "status": "proved",
   "theorems": [
    "Verif.Props.C49_enc",
    "Verif.Props.C49_diverges",
    "Verif.Props.C49_terminates"
   ],
   "note": ""
  },
  {
   "property": "C50",
   "status": "proved",
   "theorems": [
    "Verif.Props.C50_dec",
    "Verif.Props.C50_diverges",
    "Verif.Props.C50_terminates"
   ],
   "note": ""
  },
  {
   "property": "C51",
   "status": "proved",
   "theorems": [
    "Verif.Props.C51_keypair",
    "Verif.Props.C51_enc",
    "Verif.Props.C51_dec"
   ],
   "note": ""
  },
  {
   "property": "C52",
   "status": "proved",
   "theorems": [
    "Verif.Props.C52_keypair",
    "Verif.Props.C52_enc",
    "Verif.Props.C52_dec",
    "Verif.Props.C52_keypair_writes",
    "Verif.Props.C52_enc_writes",
    "Verif.Props.C52_implicit_rejection"
   ],
   "note": ""
  },
  {
   "property": "C53",
   "status": "proved",
   "theorems": [
    "Verif.Props.C53_keypair",
    "Verif.Props.C53_enc",
    "Verif.Props.C53_dec"
   ],
   "note": ""
  },
  {
   "property": "C54",
   "status": "proved",
   "theorems": [
    "Verif.Props.C54_interoperate"
   ],
   "note": ""
  },
  {
   "property": "C55",
   "status": "proved",
   "theorems": [
    "Verif.Props.C55_keypair",
    "Verif.Props.C55_enc",
    "Verif.Props.C55_keygen",
    "Verif.Props.C55_encaps"
   ],
   "note": ""
  },
  {
   "property": "C56",
   "status": "proved",
   "theorems": [
    "Verif.Props.C56_keypair",
    "Verif.Props.C56_enc",
    "Verif.Props.C56_dec",
    "Verif.Props.C56_dec_same_key"
   ],
   "note": ""
  },
  {
   "property": "C57",
   "status": "proved",
   "theorems": [
    "Verif.Props.C57_keypair",
    "Verif.Props.C57_keypair_avx",
    "Verif.Props.C57_enc",
    "Verif.Props.C57_enc_avx"
   ],
   "note": ""
  },
  {
   "property": "C58",
   "status": "proved",
   "theorems": [
    "Verif.Props.C58_keypair",
    "Verif.Props.C58_keypair_avx",
    "Verif.Props.C58_keypair_diverges",
    "Verif.Props.C58_keypair_same",
    "Verif.Props.C58_enc",
    "Verif.Props.C58_enc_avx",
    "Verif.Props.C58_enc_diverges",
    "Verif.Props.C58_enc_same",
    "Verif.Props.C58_dec",
    "Verif.Props.C58_dec_avx",
    "Verif.Props.C58_dec_same",
    "Verif.Props.C58_roundtrip",
    "Verif.Props.C58_roundtrip_avx"
   ],
   "note": ""
  },
  {
   "property": "C59",
   "status": "proved",
   "theorems": [
    "Verif.Props.C59_uniform",
    "Verif.Props.C59_failures",
    "Verif.Props.C59_count",
    "Verif.Props.C59_limit_280",
    "Verif.Props.C59_limit_blocks",
    "Verif.Props.C59_code",
    "Verif.Props.C59_code_avx"
   ],
   "note": ""
  },
  {
   "property": "C60",
   "status": "proved",
   "theorems": [
    "Verif.Props.C60_space",
    "Verif.Props.C60_meaning",
    "Verif.Props.C60_512",
    "Verif.Props.C60_768",
    "Verif.Props.C60_1024"
   ],
   "note": ""
  },
  {
   "property": "C61",
   "status": "proved",
   "theorems": [
    "Verif.Props.C61_init",
    "Verif.Props.C61_randombytes",
    "Verif.Props.C61_long_request",
    "Verif.Props.C61_counter",
    "Verif.Props.C61_calls",
    "Verif.Props.C61_openssl_init",
    "Verif.Props.C61_openssl"
   ],
   "note": ""
  },
  {
   "property": "C62",
   "status": "proved",
   "theorems": [
    "Verif.Props.C62_calls",
    "Verif.Props.C62_frame",
    "Verif.Props.C62_refusals",
    "Verif.Props.C62_last_byte",
    "Verif.Props.C62_openssl"
   ],
   "note": ""
  },
  {
   "property": "C63",
   "status": "proved",
   "theorems": [
    "Verif.Props.C63_ref",
    "Verif.Props.C63_avx2",
    "Verif.Props.C63_same",
    "Verif.Props.C63_verdict"
   ],
   "note": ""
  },
  {
   "property": "C64",
   "status": "proved",
   "theorems": [
    "Verif.Props.C64_ref",
    "Verif.Props.C64_avx2",
    "Verif.Props.C64_verdict"
   ],
   "note": ""
  },
  {
   "property": "C65",
   "status": "proved",
   "theorems": [
    "Verif.Props.C65_ref",
    "Verif.Props.C65_avx2",
    "Verif.Props.C65_open_req",
    "Verif.Props.C65_open_rsp",
    "Verif.Props.C65_open_read",
    "Verif.Props.C65_verdict",
    "Verif.Props.C65_FindMarker",
    "Verif.Props.C65_FindMarker_none",
    "Verif.Props.C65_FindMarker_long",
    "Verif.Props.C65_roundtrip",
    "Verif.Props.C65_ReadHex",
    "Verif.Props.C65_ReadHex_empty",
    "Verif.Props.C65_ReadHex_zero"
   ],
   "note": ""
  },
  {
   "property": "C66",
   "status": "proved",
   "theorems": [
    "Verif.Props.C66_cmp",
    "Verif.Props.C66_overhead",
    "Verif.Props.C66_print",
    "Verif.Props.C66_short",
    "Verif.Props.C66_median",
    "Verif.Props.C66_average",
    "Verif.Props.C66_wraps",
    "Verif.Props.C66_below_overhead",
    "Verif.Props.C66_empty"
   ],
   "note": ""
  },
  {
   "property": "C67",
   "status": "proved",
   "theorems": [
    "Verif.Props.C67_ref",
    "Verif.Props.C67_ref_uninit",
    "Verif.Props.C67_avx2_k2",
    "Verif.Props.C67_avx2",
    "Verif.Props.C67_avx2_init"
   ],
   "note": ""
  },
  {
   "property": "C68",
   "status": "proved",
   "theorems": [
    "Verif.Props.C68_data_independent",
    "Verif.Props.C68_inplace",
    "Verif.Props.C68_arith",
    "Verif.Props.C68_pack",
    "Verif.Props.C68_unpack",
    "Verif.Props.C68_needs_init"
   ],
   "note": ""
  },
  {
   "property": "C69",
   "status": "proved",
   "theorems": [
    "Verif.Props.C69_rej_uniform",
    "Verif.Props.C69_mask",
    "Verif.Props.C69_mask_rest",
    "Verif.Props.C69_gen_matrix",
    "Verif.Props.C69_matrix",
    "Verif.Props.C69_keypair",
    "Verif.Props.C69_enc",
    "Verif.Props.C69_dec",
    "Verif.Props.C69_leak_keypair",
    "Verif.Props.C69_leak_enc",
    "Verif.Props.C69_leak_dec"
   ],
   "note": ""
  },
  {
   "property": "C70",
   "status": "proved",
   "theorems": [
    "Verif.Props.C70_cut_ref",
    "Verif.Props.C70_cut_avx",
    "Verif.Props.C70_enc",
    "Verif.Props.C70_enc_diverges",
    "Verif.Props.C70_enc_outputs",
    "Verif.Props.C70_enc_exposed",
    "Verif.Props.C70_dec",
    "Verif.Props.C70_dec_diverges",
    "Verif.Props.C70_keypair_ub_pk",
    "Verif.Props.C70_keypair_ub_z",
    "Verif.Props.C70_keypair",
    "Verif.Props.C70_keypair_exposed",
    "Verif.Props.C70_keypair_clobbered",
    "Verif.Props.C70_indcpa_keypair",
    "Verif.Props.C70_indcpa_enc",
    "Verif.Props.C70_indcpa_dec",
    "Verif.Props.C70_hash",
    "Verif.Props.C70_prf",
    "Verif.Props.C70_cmov",
    "Verif.Props.C70_cmov_wrong",
    "Verif.Props.C70_cmov_avx"
   ],
   "note": ""
  },
  {
   "property": "C71",
   "status": "proved",
   "theorems": [
    "Verif.Props.C71_space",
    "Verif.Props.C71_512",
    "Verif.Props.C71_768",
    "Verif.Props.C71_1024",
    "Verif.Props.C71_most_512",
    "Verif.Props.C71_most_768",
    "Verif.Props.C71_most_1024",
    "Verif.Props.C71_stream_512",
    "Verif.Props.C71_stream_768",
    "Verif.Props.C71_stream_1024"
   ],
   "note": ""
  },
  {
   "property": "C72",
   "status": "proved",
   "theorems": [
    "Verif.Props.C72_ciphertext",
    "Verif.Props.C72_key",
    "Verif.Props.C72_encaps",
    "Verif.Props.C72_same_z",
    "Verif.Props.C72_same_z_keys",
    "Verif.Props.C72_accepted",
    "Verif.Props.C72_meaning"
   ],
   "note": ""
  },
  {
   "property": "C73",
   "status": "proved",
   "theorems": [
    "Verif.Props.C73_sizes",
    "Verif.Props.C73_keypair",
    "Verif.Props.C73_enc",
    "Verif.Props.C73_dec",
    "Verif.Props.C73_keypair_avx2",
    "Verif.Props.C73_enc_avx2",
    "Verif.Props.C73_dec_avx2"
   ],
   "note": ""
  },
  {
   "property": "C74",
   "status": "proved",
   "theorems": [
    "Verif.Props.C74_poly_add",
    "Verif.Props.C74_poly_sub",
    "Verif.Props.C74_poly_basemul",
    "Verif.Props.C74_polyvec_add",
    "Verif.Props.C74_add_call",
    "Verif.Props.C74_sub_call",
    "Verif.Props.C74_add_overlap",
    "Verif.Props.C74_basemul_inplace"
   ],
   "note": ""
  },
  {
   "property": "C75",
   "status": "proved",
   "theorems": [
    "Verif.Props.C75_keygen",
    "Verif.Props.C75_encrypt",
    "Verif.Props.C75_game_encrypt",
    "Verif.Props.C75_cpa"
   ],
   "note": ""
  },
  {
   "property": "C76",
   "status": "proved",
   "theorems": [
    "Verif.Props.C76_decaps",
    "Verif.Props.C76_fo",
    "Verif.Props.C76_fail",
    "Verif.Props.C76_512",
    "Verif.Props.C76_768",
    "Verif.Props.C76_1024"
   ],
   "note": ""
  },
  {
   "property": "C77",
   "status": "proved",
   "theorems": [
    "Verif.Props.C77_generator",
    "Verif.Props.C77_table",
    "Verif.Props.C77_tree"
   ],
   "note": ""
  },
  {
   "property": "C78",
   "status": "proved",
   "theorems": [
    "Verif.Props.C78_initialize",
    "Verif.Props.C78_add_byte",
    "Verif.Props.C78_add_bytes",
    "Verif.Props.C78_overwrite_bytes",
    "Verif.Props.C78_overwrite_zeroes",
    "Verif.Props.C78_extract_bytes",
    "Verif.Props.C78_extract_and_add_bytes",
    "Verif.Props.C78_alignment",
    "Verif.Props.C78_alignment_two",
    "Verif.Props.C78_add_lanes",
    "Verif.Props.C78_overwrite_lanes",
    "Verif.Props.C78_extract_lanes",
    "Verif.Props.C78_extract_and_add_lanes",
    "Verif.Props.C78_offset_wraps"
   ],
   "note": ""
  },
  {
   "property": "C79",
   "status": "proved",
   "theorems": [
    "Verif.Props.C79_permute",
    "Verif.Props.C79_keccak_f",
    "Verif.Props.C79_fast_loop",
    "Verif.Props.C79_pointers",
    "Verif.Props.C79_serial_offset",
    "Verif.Props.C79_no_end"
   ],
   "note": ""
  },
  {
   "property": "C80",
   "status": "proved",
   "theorems": [
    "Verif.Props.C80_keygen",
    "Verif.Props.C80_encrypt",
    "Verif.Props.C80_cpa",
    "Verif.Props.C80_uniform_key",
    "Verif.Props.C80_uniform_cipher"
   ],
   "note": ""
  },
  {
   "property": "C81",
   "status": "proved",
   "theorems": [
    "Verif.Props.C81_encaps",
    "Verif.Props.C81_decaps",
    "Verif.Props.C81_code_keypair_dec",
    "Verif.Props.C81_code_enc",
    "Verif.Props.C81_avx_keypair_dec",
    "Verif.Props.C81_avx_enc",
    "Verif.Props.C81_fail",
    "Verif.Props.C81_512",
    "Verif.Props.C81_768",
    "Verif.Props.C81_1024"
   ],
   "note": ""
  },
  {
   "property": "C82",
   "status": "proved",
   "theorems": [
    "Verif.Props.C82_standard",
    "Verif.Props.C82_fo",
    "Verif.Props.C82_512",
    "Verif.Props.C82_768",
    "Verif.Props.C82_1024"
   ],
   "note": ""
  },
  {
   "property": "C83",
   "status": "proved",
   "theorems": [
    "Verif.Props.C83_enc",
    "Verif.Props.C83_enc_outputs",
    "Verif.Props.C83_enc_exposed",
    "Verif.Props.C83_enc_diverges",
    "Verif.Props.C83_keypair_ub",
    "Verif.Props.C83_keypair_writes",
    "Verif.Props.C83_keypair",
    "Verif.Props.C83_keypair_clobbered",
    "Verif.Props.C83_keypair_rejection_published",
    "Verif.Props.C83_abort"
   ],
   "note": ""
  },
  {
   "property": "C84",
   "status": "proved",
   "theorems": [
    "Verif.Props.C84_pseudorandom",
    "Verif.Props.C84_pseudorandom_bound",
    "Verif.Props.C84_anonymous"
   ],
   "note": ""
  },
  {
   "property": "C85",
   "status": "proved",
   "theorems": [
    "Verif.Props.C85_codes_string",
    "Verif.Props.C85_codes_uniform",
    "Verif.Props.C85_heavy",
    "Verif.Props.C85_512",
    "Verif.Props.C85_768",
    "Verif.Props.C85_1024",
    "Verif.Props.C85_ciphertexts"
   ],
   "note": ""
  },
  {
   "property": "C86",
   "status": "proved",
   "theorems": [
    "Verif.Props.C86_fo",
    "Verif.Props.C86_mlkem",
    "Verif.Props.C86_512",
    "Verif.Props.C86_768",
    "Verif.Props.C86_1024"
   ],
   "note": ""
  },
  {
   "property": "C87",
   "status": "proved",
   "theorems": [
    "Verif.Props.C87_own",
    "Verif.Props.C87_mlkem",
    "Verif.Props.C87_512",
    "Verif.Props.C87_768",
    "Verif.Props.C87_1024"
   ],
   "note": ""
  },
  {
   "property": "C88",
   "status": "proved",
   "theorems": [
    "Verif.Props.C88_keygen",
    "Verif.Props.C88_encaps",
    "Verif.Props.C88_decaps",
    "Verif.Props.C88_reject",
    "Verif.Props.C88_random",
    "Verif.Props.C88_ref_keypair",
    "Verif.Props.C88_ref_enc",
    "Verif.Props.C88_ref_dec",
    "Verif.Props.C88_ref_reject",
    "Verif.Props.C88_ref_random",
    "Verif.Props.C88_avx_keypair",
    "Verif.Props.C88_avx_enc",
    "Verif.Props.C88_avx_dec",
    "Verif.Props.C88_avx_reject",
    "Verif.Props.C88_avx_random",
    "Verif.Props.C88_threshold",
    "Verif.Props.C88_inputs",
    "Verif.Props.C88_ref_vector",
    "Verif.Props.C88_avx_vector",
    "Verif.Props.C88_prefix"
   ],
   "note": ""
  },
  {
   "property": "C89",
   "status": "proved",
   "theorems": [
    "Verif.Props.C89_check",
    "Verif.Props.C89_encoding",
    "Verif.Props.C89_reduced",
    "Verif.Props.C89_keygen",
    "Verif.Props.C89_ref_keypair",
    "Verif.Props.C89_avx_keypair",
    "Verif.Props.C89_conditional",
    "Verif.Props.C89_fraction",
    "Verif.Props.C89_rare",
    "Verif.Props.C89_told",
    "Verif.Props.C89_pseudorandom",
    "Verif.Props.C89_like_strings",
    "Verif.Props.C89_standard"
   ],
   "note": ""
  },
  {
   "property": "C90",
   "status": "proved",
   "theorems": [
    "Verif.Props.C90_ref_keypair",
    "Verif.Props.C90_avx_keypair",
    "Verif.Props.C90_not_checked",
    "Verif.Props.C90_z",
    "Verif.Props.C90_residues",
    "Verif.Props.C90_hash",
    "Verif.Props.C90_rejected"
   ],
   "note": ""
  },
  {
   "property": "C91",
   "status": "proved",
   "theorems": [
    "Verif.Props.C91_standard",
    "Verif.Props.C91_builds",
    "Verif.Props.C91_defined",
    "Verif.Props.C91_terminates",
    "Verif.Props.C91_leak",
    "Verif.Props.C91_usable"
   ],
   "note": ""
  },
  {
   "property": "C92",
   "status": "proved",
   "theorems": [
    "Verif.Props.C92_length",
    "Verif.Props.C92_small",
    "Verif.Props.C92_recover",
    "Verif.Props.C92_ref",
    "Verif.Props.C92_avx",
    "Verif.Props.C92_needed",
    "Verif.Props.C92_coeff",
    "Verif.Props.C92_oracle",
    "Verif.Props.C92_uncompared"
   ],
   "note": ""
  },
  {
   "property": "C93",
   "status": "proved",
   "theorems": [
    "Verif.Props.C93_flip",
    "Verif.Props.C93_malleable",
    "Verif.Props.C93_reuse",
    "Verif.Props.C93_code_flip",
    "Verif.Props.C93_ref_reuse",
    "Verif.Props.C93_avx_reuse"
   ],
   "note": ""
  },
  {
   "property": "C94",
   "status": "proved",
   "theorems": [
    "Verif.Props.C94_spelling",
    "Verif.Props.C94_exe",
    "Verif.Props.C94_types_ref",
    "Verif.Props.C94_types_nistkat",
    "Verif.Props.C94_types_avx",
    "Verif.Props.C94_libs",
    "Verif.Props.C94_lib_refs",
    "Verif.Props.C94_same_file",
    "Verif.Props.C94_api",
    "Verif.Props.C94_undefined",
    "Verif.Props.C94_state",
    "Verif.Props.C94_state_exe"
   ],
   "note": ""
  },
  {
   "property": "C95",
   "status": "proved",
   "theorems": [
    "Verif.Props.C95_one",
    "Verif.Props.C95_own",
    "Verif.Props.C95_fo",
    "Verif.Props.C95_mlkem",
    "Verif.Props.C95_512",
    "Verif.Props.C95_768",
    "Verif.Props.C95_1024"
   ],
   "note": ""
  },
  {
   "property": "C96",
   "status": "proved",
   "theorems": [
    "Verif.Props.C96_full",
    "Verif.Props.C96_bit",
    "Verif.Props.C96_byte",
    "Verif.Props.C96_prefix",
    "Verif.Props.C96_verify"
   ],
   "note": ""
  },
  {
   "property": "C97",
   "status": "proved",
   "theorems": [
    "Verif.Props.C97_script",
    "Verif.Props.C97_zero",
    "Verif.Props.C97_without",
    "Verif.Props.C97_nproc",
    "Verif.Props.C97_sums",
    "Verif.Props.C97_meta",
    "Verif.Props.C97_fresh",
    "Verif.Props.C97_clean",
    "Verif.Props.C97_lcov"
   ],
   "note": ""
  },
  {
   "property": "C98",
   "status": "proved",
   "theorems": [
    "Verif.Props.C98_prereqs",
    "Verif.Props.C98_complete",
    "Verif.Props.C98_clean",
    "Verif.Props.C98_stale",
    "Verif.Props.C98_reads",
    "Verif.Props.C98_missing",
    "Verif.Props.C98_exact",
    "Verif.Props.C98_object",
    "Verif.Props.C98_package"
   ],
   "note": ""
  },
  {
   "property": "C99",
   "status": "proved",
   "theorems": [
    "Verif.Props.C99_one",
    "Verif.Props.C99_one_standard",
    "Verif.Props.C99_game",
    "Verif.Props.C99_512",
    "Verif.Props.C99_768",
    "Verif.Props.C99_1024",
    "Verif.Props.C99_standard",
    "Verif.Props.C99_separate",
    "Verif.Props.C99_any",
    "Verif.Props.C99_uniform",
    "Verif.Props.C99_padded",
    "Verif.Props.C99_states",
    "Verif.Props.C99_absorb",
    "Verif.Props.C99_prefix",
    "Verif.Props.C99_only",
    "Verif.Props.C99_once",
    "Verif.Props.C99_mlkem"
   ],
   "note": ""
  }
 ]
}