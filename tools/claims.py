L = "Verif.Layout."
c("C01", P, [L+"C01_lexico", L+"C01_cb2", L+"C01_cb3d", L+"C01_cb32", L+"C01_cb2_odd_fails", L+"C01_cb2_extent_one_ub"],
  "any Nd, any extents with the evenness each ordering needs, volume < 2^31; overflow and division by zero are modelled as undefined behaviour")
R = "Verif.ParLayout."
c("C02", P, [R+"C02_lexico", R+"C02_cb2", R+"C02_cb3d", R+"C02_subgrid", R+"C02_scalar", R+"lexMachine_good", R+"C02_cb2_odd_block_fails"],
  "QMP node numbering enters as a hypothesis (mutually inverse maps), the machine grid must cut the lattice into equal blocks; the 32-colour ordering does not compile on multi-node builds")
c("C03", P, [L+"C03_cb2", L+"C03_cb3d", L+"C03_halves", R+"C03_par_cb2", R+"C03_par_cb3d"], "single and multi node")
S = "Verif.Subset."
c("C04", P, [S+"C04_make", S+"C04_partition", S+"C04_illegal_colour"],
  "for every layout satisfying C02 (all orderings, one or many nodes) and every colour function")
c("C05", P, [S+"C05_ordered", S+"C05_all", S+"C05_rb_cb2"], "")
H = "Verif.Shift."
c("C06", P, [H+"C06_swap", H+"C06_odd_fails"], "even extent in the shift direction is necessary and sufficient")
c("C07", P, [H+"C07_shift", H+"C07_map", H+"C07_isign"], "any expression tree, any ordering satisfying C02 with one node; also any user map; extents up to 2^31/5 (4*nrow overflows beyond)")
c("C08", P, [H+"C08_shifts"], "")
M = "Verif.ParMap."
c("C09", P, [M+"C09_map", M+"C09_shift", M+"C09_shift_lexico", M+"C09_shift_cb2"],
  "any permutation whose make is accepted on every node; nearest-neighbour shift shown to be accepted on every machine grid; QMP delivery assumed")
c("C10", P, [M+"C10_schedules", M+"C10_needs_bijection"], "")
U = "Verif.Util."
c("C54", A, [U+"C54_uniquify_partial", U+"C54_empty_ub"], "true for non-empty lists; the empty list is read out of bounds")
E = "Verif.Seed."
c("C11", P, [E+"C11_mul", E+"C11_unique", E+"C11_shl", E+"C11_or", E+"C11_assign", E+"C11_eq"], "")
c("C16", P, [E+"C16_exact", E+"C16_closed", E+"C16_double", E+"C16_float_one", E+"C16_reaches_one"],
  "the IEEE rounding is modelled as round-half-even to p bits; the value 1.0 is reached, as the statement says")
G = "Verif.Rng."
c("C12", P, [G+"C12_layout_independent"], "volume < 2^30 (numbits overflows above: numbits_overflow); idle threads are the subject of C15")
c("C13", P, [G+"C13_sequence", G+"C13_no_reuse", G+"C13_seed_skipped", G+"C13_distinct"],
  "any history of scalar and lattice draws; C13_distinct adds that for odd seeds different elements are different numbers")
c("C14", P, [G+"C14_replay"], "")
c("C15", A, [G+"C15_seed_partial", G+"C15_static_partial", G+"C15_empty_node", G+"C15_nodes_diverge", G+"C15_idle_thread"],
  "false as stated: a node without sites keeps its seed, and an idle thread of the single-node code copies an uninitialised seed; proved when neither happens")
N_ = "Verif.Rannyu."
c("C17", A, [N_+"C17_rannyu_partial", N_+"C17_refuted", N_+"C17_no_overflow"],
  "false as stated: the top limb is shifted where it should be masked; lower 36 bits proved for every state")
c("C18", A, [N_+"C18_seed_partial", N_+"C18_inited_partial", N_+"C18_refuted", N_+"C18_state"],
  "false as stated: a setrn before the first random() is ignored, for every seed; true once a random() has been called")
K = "Verif.Crc."
c("C19", P, [K+"C19_crc", K+"C19_table"], "")
c("C20", P, [K+"C20_incremental", K+"C20_pieces"], "")
c("C21", P, [K+"C21_burst", K+"C21_word"], "")
T = "Verif.Multi."
c("C38", P, [T+"C38_addresses", T+"C38_no_overflow"], "")
c("C39", A, [T+"C39_index_partial", T+"C39_cubic_partial", T+"C39_call_reversed_partial", T+"C39_palindrome_partial", T+"C39_strides_disagree", T+"C39_collision"],
  "false as stated: the call operators of multiNd use the extents in the opposite order, so for unequal extents they collide and leave the allocation; index lists and flat offsets proved for every rank and shape")
c("C40", A, [T+"C40_multi1d", T+"C40_multiNd_partial", T+"C40_self_ub", T+"C40_independent", T+"C40_view_abort"],
  "multi1d fully; for higher ranks self-assignment of a non-empty array reads freed/uninitialised memory")
c("C41", A, [T+"C41_lt", T+"C41_trichotomy_partial", T+"C41_empty_not_equal"], "== is false for two empty arrays; everything else holds")
c("C56", A, [T+"C56_scalar_partial", T+"C56_alias"], "false when the scalar is an element of the array other than the last")
B = "Verif.ByteOrder."
c("C22", A, [B+"C22_swap_partial", B+"C22_unsupported", B+"C22_never_ends"],
  "every supported size and fewer than 2^32 elements; with 2^32 elements or more the unsigned int counter wraps and the loop never ends")
I = "Verif.BinIO."
c("C23", A, [I+"C23_portable_partial", I+"C23_bfread_bfwrite_partial", I+"C23_count", I+"C23_size"],
  "supported sizes and, for elements of more than a byte, fewer than 2^32 of them; outside these limits a little-endian host hangs or stops while a big-endian one writes")
c("C24", P, [I+"C24_sequences", I+"C24_multi2d", I+"C24_multi3d", I+"C24_multi4d", I+"C24_multi5d", I+"C24_multiNd", I+"C24_pair", I+"C24_map", I+"C24_complex", I+"C24_desc", I+"C24_roundtrip"],
  "closure theorems, so any nesting; multiNd of rank at least 1 (rank 0 reads nz[0] of an empty array)")
c("C25", P, [I+"C25_line"], "")
c("C26", A, [I+"C26_checksum_partial", I+"C26_truncated", I+"C26_little_endian", I+"C26_null"],
  "true for all array calls and for line reads that return the line; false for truncated lines, for the little-endian readers and for empty writes from a null pointer")
c("C55", A, [I+"C55_file_partial", I+"C55_buffer", I+"C55_differ"], "true for files, false for memory buffers")
O = "Verif.LatticeIO."
c("C27", A, [O+"C27_par_partial", O+"C27_single", O+"C27_same_file_partial", O+"C27_offset", O+"C27_short_rows"],
  "every geometry, ordering, byte order; multi-node machines that are not grids need rows of at least 4 bytes, since the 4-byte clear-to-send message goes through the row buffer (otherwise undefined, proved)")
c("C28", A, [O+"C28_par", O+"C28_single", O+"C28_other_machine_partial"], "reading proved for all; the write/read composition inherits the row condition of C27")
c("C29", A, [O+"C29_write_partial", O+"C29_read", O+"C29_single", O+"C29_site_partial", O+"C29_site_single", O+"C29_short_site"],
  "as C27: rows (or single elements) shorter than 4 bytes cannot be written on non-grid machines")
c("C30", A, [O+"C30_write_partial", O+"C30_read_partial", O+"C30_single", O+"C30_reject", O+"C30_one_dimension"],
  "two or more dimensions (one-dimensional slices stop a multi-node program, proved) and the row condition of C27")
MO = "Verif.MapObj."
c("C31", P, [MO+"C31"], "")
MD = "Verif.MapDisk."
c("C32", A, [MD+"C32_C33_history_partial", MD+"C32_get_partial", MD+"C32_lookup_then_insert", MD+"C32_update_then_insert", MD+"C32_longer_update", MD+"C32_keys_append"],
  "true of every history in which a new key is inserted only while the stream stands at the end of the file and updates do not outgrow their slot; false otherwise: after a lookup or an update a new record overwrites older ones (proved for all keys and values)")
c("C33", A, [MD+"C32_C33_history_partial", MD+"C33_close_partial", MD+"C33_foreign"],
  "same side conditions as C32, any number of open/close cycles, hosts of either byte order; files shorter than 2^63 bytes; a file with another magic string is refused")
c("C34", A, [MD+"C34_crash_partial", MD+"C34_never_flushed", MD+"C34_torn_link"],
  "every prefix of the writes of insertions keeps the flushed map; a file never flushed does not open; a write of the link to the map torn inside its 16 bytes loses the file")
c("C35", A, [MD+"C35_undefined", MD+"C35_roundtrip_partial", MD+"C35_create", MD+"C35_insert"],
  "with a 64-bit streamoff the divisor is 0, so the conversion is undefined and even creating a file is; with a wider type the round trip holds")
c("C36", A, [MD+"C36_stale_keys", MD+"C36_clean_partial", MD+"C36_user_data"], "keys of the previous file stay visible; true for an object whose map is empty")
MM = "Verif.MapMulti."
c("C37", P, [MM+"C37", MM+"C37_fileExists", MM+"C37_fileExists_open", MM+"C37_after_close"],
  "for files written by histories as in C32/C33; also shown: fileExists before open is always true, and calls after close use deleted objects")
SP = "Verif.Spin."
c("C42", P, [SP+"C42_vector", SP+"C42_left", SP+"C42_right", SP+"C42_vector_DP", SP+"C42_left_DP", SP+"C42_right_DP", SP+"C42_clifford", SP+"C42_run_time", SP+"mulVec_mul"],
  "components in any additive group with multiplication by i; tables transcribed mechanically (tools/gen_spin.py)")
c("C43", P, [SP+"C43_project", SP+"C43_twice", SP+"C43_opposite", SP+"C43_link", SP+"C43_inline_project", SP+"C43_inline_recon", SP+"C43_inline_add_recon", SP+"C43_inline", SP+"C43_run_time", SP+"C43_run_time_illegal"],
  "generic functions and the inlined ones for any number of sites; exact arithmetic; SSE versions not modelled")
c("C57", P, [SP+"C57_chiral", SP+"C57_not_DP"], "default basis; in the Dirac-Pauli basis the functions are not the chirality projectors (proved)")
DI = "Verif.Dispatch."
EV = "Verif.Evaluate."
c("C47", P, [DI+"C47_cover", DI+"C47_disjoint", DI+"C47_overflow", EV+"C47_serial", EV+"C47_progress"],
  "product of sites and active threads below 2^31 as stated; above it the bound of the last thread overflows (proved)")
c("C48", P, [EV+"C48_assign", EV+"C48_multi_node", EV+"C48_subset", EV+"C48_shift_in_place", EV+"C48_shift_race"],
  "evaluation of the right hand side at one site is one step, storing is another; the shift hazard is proved for one thread and as a race")
GS = "Verif.GlobalSum."
c("C49", P, [GS+"C49_direction", GS+"C49_order", GS+"C49_identical", GS+"C49_sum"], "")
SU = "Verif.Sums."
c("C50", A, [SU+"C50_sum", SU+"C50_multi", SU+"C50_multi_par", SU+"C50_subset", SU+"C50_partition", SU+"C50_nodes", SU+"C50_par_partial", SU+"C50_whole_partial", SU+"C50_gate", SU+"C50_lost"],
  "single-node code: every distribution of iterations and every order of critical sections. Many-node sum: a thread whose number reaches the number of sites never adds its result, so it holds for schedules that give such threads nothing (OpenMP does not promise this; exact loss proved)")
EX = "Verif.Extremes."
c("C58", A, [EX+"C58_node_partial", EX+"C58_nodes_partial", EX+"C58_nan_first", EX+"C58_nan_later", EX+"C58_layout_dependent"],
  "true without not-a-numbers; with one, the result depends on whether it sits on the first site of a node")
c("C59", A, [EX+"C59_word", EX+"C59_scalar", EX+"C59_complex", EX+"C59_vector", EX+"C59_matrix", EX+"C59_lattice", EX+"C59_normal_partial", EX+"C59_matrix_normal", EX+"C59_matrix_normal_wrong", EX+"C59_matrix_normal_inf", EX+"C59_reduce_undefined", EX+"C59_reduce_partial", EX+"C59_one_node"],
  "isnormal of a matrix calls isinf, so it is false for every matrix of normal numbers; the reductions over nodes access bools as unsigned ints")
AR = "Verif.Archive."
AH = "Verif.ArchiveHdr."
c("C44", P, [AR+"C44_three_rows", AR+"C44_first_rows", AR+"C44_third_row", AR+"C44_orthogonal", AR+"C44_det", AR+"C44_completes", AR+"C44_only", AR+"C44_field"],
  "exact arithmetic over any commutative ring; storage as 32-bit numbers is an abstract conversion assumed to be undone by loading")
c("C45", P, [AR+"C45_checksum_par", AR+"C45_checksum_single", AR+"C45_size", AR+"C45_file", AR+"C45_read", AR+"C45_double"],
  "both codes, 12 and 18 numbers, both byte orders")
c("C46", A, [AH+"C46_fields_partial", AH+"C46_boundary", AH+"C46_format", AH+"C46_blanks", AH+"C46_long_label", AH+"C46_xml_checksum", AH+"C46_accepts", AH+"C46_twice_refuted"],
  "sizes, checksum, sequence number and labels without leading blanks come back; boundary conditions, number of rows, size of numbers and long labels do not (proved for all headers). Accepted headers are complete and have the sizes of the lattice; a header with four sizes that do not cover the four directions is compared through uninitialised numbers")
AL = "Verif.Alloc."
c("C51", A, [AL+"C51_live_partial", AL+"C51_allocate_partial", AL+"C51_free_partial", AL+"C51_unknown_partial", AL+"C51_all_freed_partial", AL+"C51_wrap"],
  "all histories and answers of new; sizes below 2^64 minus the alignment (above, the request wraps around: proved)")
c("C52", A, [AL+"C52_live_partial", AL+"C52_free_partial", AL+"C52_exhausted", AL+"C52_unknown", AL+"C52_wrap", AL+"C52_pool_size", AL+"C52_before_init"],
  "alignment, disjointness, containment and release hold for every history including exhaustion; exhaustion is returned as a null pointer and unknown pointers are accepted (proved)")
SW = "Verif.StopWatch."
c("C53", A, [SW+"C53_shown_partial", SW+"C53_intervals", SW+"C53_normalised", SW+"C53_stop_idle", SW+"C53_clock_failure", SW+"C53_start_twice", SW+"C53_not_normalised", SW+"C53_backwards"],
  "sum of intervals for every history with a working clock; the misuse and backwards-clock parts of the claim are refuted")
BL = "Verif.Blas."
c("C60", A, [BL+"C60_tidy", BL+"C60_same_as_general", BL+"C60_all_partial"],
  "exact arithmetic; 74 of 83 specialisations on all subsets, the other nine on subsets without the last site of the node")
c("C61", A, [BL+"C60_tidy", BL+"C60_all_partial", BL+"C61_last_site"],
  "holds for 74 specialisations (executions without undefined behaviour); the nine with a _g5ProjPlus kernel of seven read behind the field at the last site (proved for all fields, one thread, contiguous subsets)")
SI = "Verif.Site."
c("C62", P, [SI+x for x in ["C62_adjMul", "C62_mulAdj", "C62_adjMulAdj", "C62_traceMul", "C62_traceKMul", "C62_realTrace", "C62_inner", "C62_innerReal", "C62_norm2", "C62_traceSpinOuter"]],
  "exact arithmetic; where an overload is missing (the program does not compile) nothing is claimed")
c("C63", A, [SI+"C63_imagTrace_partial", SI+"C63_imagTrace_false", SI+"C63_imagTrace_real"],
  "true for complex types; on real types imagTrace returns the trace itself (proved for all of them)")
c("C64", P, [SI+x for x in ["C64_mul", "C64_adj", "C64_conj", "C64_transpose", "C64_trace", "C64_inner", "C64_norm2", "C64_outer", "C64_adj_mul", "C64_trace_cyclic"]],
  "exact arithmetic")
CT = "Verif.Contract."
c("C65", P, [CT+x for x in ["C65_colorContract", "C65_quarkContractXX", "C65_vecContract3", "C65_colorVectorContract", "C65_colorCrossProduct", "C65_localColorInnerProduct", "C65_det", "C65_trace", "C65_cross", "C65_symm", "C65_spin", "C65_traceSpin", "C65_spinColorInner", "C65_left", "C65_right"]],
  "three colours (other numbers of colours stop the program); exact arithmetic")
c("C66", P, [SI+"C66_build", SI+"C66_not_compiled"],
  "value at a site; C66_not_compiled shows an expression whose rewritten form does not compile although the plain one would")
S3 = "Verif.Su3."
c("C67", P, [S3+"C67_specs"], "exact arithmetic")
c("C68", A, [S3+"C68_half_partial", S3+"C68_in_place", S3+"C68_in_place_wrong"],
  "true when the destination is not the right operand; for h = u*h the first component is overwritten before it is used (exact formula of the error proved for all fields and schedules)")
RD = "Verif.Reduce."
c("C69", A, [RD+x for x in ["C69_norm2_partial", "C69_inner_partial", "C69_innerReal_partial", "C69_all_partial", "C69_arrays_partial", "C69_nodes_partial", "C69_shorter", "C69_overflow"]],
  "exact arithmetic; fewer than 89478486 sites per node (above, the number of words overflows int: proved) and second array not shorter than the first (else it is read out of bounds: proved)")
XN = "Verif.XmlNum."
c("C70", A, [XN+x for x in ["C70_round_trip", "C70_types", "C70_accepts_partial", "C70_rejects", "C70_dropped", "C70_blank_matters", "C70_list", "C70_list_dropped", "C70_negative"]],
  "round trip holds for all arrays; the exact language accepted is proved; a last entry out of range or a lone sign at the very end is dropped without error, lists stop at the first bad entry without error, negative numbers wrap in unsigned arrays (all proved)")
XT = "Verif.XmlTree."
c("C71", A, [XT+x for x in ["C71_round_trip_partial", "C71_list", "C71_list_lost", "C71_list_bool", "C71_map"]],
  "all nestings without a std::list read by the template (which always gives the empty list: proved); maps must be empty before (else old entries win: proved); keys of maps are integers; finding elements by tag is the model's reading of the XPath library, which is not in the repository")
XA = "Verif.XmlArray."
c("C72", A, [XA+x for x in ["C72_document_partial", "C72_empty", "C72_no_stray", "C72_program", "C72_size_zero", "C72_simple", "C72_push_nested", "C72_unfinished"]],
  "for all call sequences in which an array whose tag was written gets an element and the size is not 0; an array without elements is left open, size 0 is not enforced, simple values are not counted (proved)")
XO = "Verif.XmlNodes."
c("C73", A, [XO+x for x in ["C73_agree_partial", "C73_primary", "C73_waits", "C73_shifted", "C73_defaults"]],
  "for all programs whose queries are all found; when one is not found the primary node leaves before the broadcast, so the other nodes take the next message for the missing value or wait forever (proved for all documents and lists of defaults)")
IO = "Verif.IoNode."
c("C74", A, [IO+x for x in ["C74_node", "C74_blocks", "C74_count", "C74_at_most", "C74_asked_partial", "C74_master", "C74_fewer", "C74_zero"]],
  "assignment and blocks for all machines and grids of positive numbers; the number of I/O nodes is the one asked for if the grid divides the machine, otherwise it may be less (exact count proved); a zero in the grid divides by zero (proved)")
QF = "Verif.QioField."
c("C75", A, [QF+x for x in ["C75_field_partial", "C75_array_partial", "C75_same", "C75_read", "C75_read_array", "C75_refused", "C75_scalar", "C75_scalar_length", "C75_int_as_float", "C75_float_as_int", "C75_overrun", "C75_scalar_overrun", "C75_outside"]],
  "for records and fields with the same number of words that are of the same kind or both floating-point, QIO taken by its interface; a record of another size is refused; integers and single-precision numbers are taken for each other, an array record overruns a single field of the same total size, and outside a hypercube floating-point fields are zeroed but integer fields kept (proved)")
CL = "Verif.CmdLine."
c("C76", A, [CL+x for x in ["C76_accepted_partial", "C76_names", "C76_missing", "C76_missing_last", "C76_not_int", "C76_no_error", "C76_unknown"]] + ["Verif.CmdLineLibs."+x for x in ["C76_par_partial", "C76_scalar_partial", "C76_parvec_partial", "C76_vec_partial", "C76_help", "C76_message_dead", "C76_libs_missing", "C76_pool_silent"]],
  "the command lines read without undefined behaviour, and what they set, are characterised; missing and malformed values are undefined behaviour, the error message is unreachable, unknown options are ignored (proved)")
H5 = "Verif.Hdf5."
c("C77", A, [H5+x for x in ["C77_map", "C77_read", "C77_read_array", "C77_read_typed", "C77_read_typed_array", "C77_write_partial", "C77_write_typed", "C77_roundtrip_partial", "C77_array_roundtrip_partial", "C77_typed_roundtrip", "C77_typed_array_roundtrip_partial", "C77_maintain", "C77_one_number_fails", "C77_single_matrix_fails", "C77_array_of_one_fails", "C77_small_sites_fail", "C77_array_small_fails", "C77_narrow_fails", "C77_double_fails", "C77_wide_fails", "C77_odd_write_fails", "C77_odd_read_fails", "C77_accepts", "C77_typed_accepts"]],
  "round trips between all machines, orderings and byte orders, for sites of at least two numbers of type REAL, arrays of colour matrices of length at least two, and pieces below 2 GB or evenly halved; HDF5 taken by its interface. Fields of one number, single-precision colour matrices and arrays of one matrix are never readable, types with another number of words are accepted with wrong sites or overrun, odd extents above 2 GB lose rows (all proved)")
c("C78", A, [H5+x for x in ["C78_read", "C78_read_prop", "C78_write", "C78_refused", "C78_roundtrip_fails", "C78_transposed", "C78_roundtrip_partial", "C78_ordinary"]],
  "what is written, refused and read is proved for all machines; but the writer puts the last coordinate first and the reader expects the first: a configuration is refused or read transposed (both proved), the round trip only holds for fields symmetric under reversal of the coordinates")
HP = "Verif.Hdf5Path."
c("C79", A, [HP+x for x in ["C79_split", "C79_parent", "C79_pop", "C79_cd_partial", "C79_cd_stays", "C79_cd_hangs", "C79_push_partial", "C79_push_blocked", "C79_mkdir", "C79_exists_partial", "C79_exists_root_fails", "C79_push_pop", "C79_push_pop_back", "C79_push_pop_blocked"]],
  "all trees and strings, HDF5 links as a tree without soft links. cd to the current group by another name never ends, objectExists of the root is undefined, push stops silently at a data set, pop takes back push only for one name (all proved)")
HV = "Verif.Hdf5Val."
c("C80", A, [HV+x for x in ["C80_write_partial", "C80_write_array", "C80_write_matrix", "C80_write_string_partial", "C80_refused", "C80_string_ignored", "C80_lost", "C80_read", "C80_read_complex", "C80_read_array", "C80_read_complex_array", "C80_read_matrix", "C80_read_string_partial", "C80_string", "C80_read_refused", "C80_overrun", "C80_empty", "C80_roundtrip", "C80_scalar_write_partial", "C80_scalar_size_fails", "C80_scalar_read", "C80_scalar_roundtrip", "C80_scalar_same", "C80_scalar_order_fails", "C80_scalar_double_fails", "C80_scalar_single_fails", "C80_colour_matrix_fails", "C80_scalars_roundtrip_partial", "C80_scalars_empty_fails", "C80_att_write", "C80_att_refused", "C80_att_read_partial", "C80_att_overrun"]],
  "round trips of numbers, complex numbers, arrays, matrices, strings without zero bytes, scalars of words of type REAL and attributes, for all files, names and byte orders. Lost writes, ignored strings, overruns by arrays, scalars of other sizes or precisions, colour matrices without a reader and empty arrays of scalars are refuted (all proved). Committed types and allocation failures are not modelled")
SE = "Verif.Sse."
c("C81", A, [SE+x for x in ["C81_products_partial", "C81_copies", "C81_site_operators", "C81_index", "C81_in_place"]],
  "true, for all matrices, subsets, thread counts and interleavings and both versions of the kernels, if the right operand is not the destination and an operand under adj is not either; for every other choice of fields it is refuted for each of the twelve statements and both versions (C81_in_place), over every nontrivial ring. Exact arithmetic; alignment of the fields is not modelled")
SR = "Verif.SseReduce."
c("C82", A, [SR+x for x in ["C82_norm2_partial", "C82_inner_partial", "C82_unthreaded_partial", "C82_norm2_array", "C82_arrays_partial", "C82_arrays_double_partial", "C82_all_partial", "C82_stale", "C82_uninitialised", "C82_example"]],
  "true for all fields and subsets if an ordered subset has at least as many sites as there are threads and the int products stay below 2^31; refuted otherwise: cells of threads without sites keep the sums of an earlier call (C82_stale, C82_example) or were never written (C82_uninitialised); innerProduct of arrays reads past a shorter second one. Exact arithmetic, without the sum over nodes")
SB = "Verif.SseBlas."
c("C83", P, [SB+x for x in ["C83_statement", "C83_same_as_general", "C83_same_as_generic", "counterparts"]],
  "exact arithmetic; products of sites and threads below 2^31; kernels and calls extracted from the sources by tools/gen_sse_blas.py. Not modelled: rounding, alignment, ordering of non-temporal stores, prefetches")
SS = "Verif.SseSingle."
c("C84", A, [SS+x for x in ["C84_products_partial", "C84_through_tmp", "C84_copies_partial", "C84_copies_iff", "C84_odd", "C84_red_black"]],
  "copies: true unless the subset is a run that begins at an odd site, and then undefined (unaligned access), e.g. d[rb[1]] = l on a node with twice an odd number of sites. Products: the routines of libintrin are a parameter; with += and -= and for adj*adj the result is right for all operands if they are right for separate ones; for = it is not known what they do in place. Exact arithmetic")
c("C85", P, ["Verif.PeekPoke.C85_peek_poke", "Verif.PeekPoke.C85_lexico", "Verif.PeekPoke.C85_cb2", "Verif.PeekPoke.C85_one_node", "Verif.PeekPoke.C85_extract", "Verif.PeekPoke.C85_copymask", "Verif.PeekPoke.C85_extract_short", "Verif.PeekPoke.C85_off_lattice", "Verif.PeekPoke.C85_off_lattice_par", "Verif.PeekPoke.C85_crossed"],
  "QMP is modelled as ordered channels and a broadcast from node 0 with any degree of waiting. Coordinates off the lattice are not noticed and give different sites in the two builds (C85_off_lattice, C85_off_lattice_par); nodes that ask for different sites can wait for ever (C85_crossed); an array sized by the subset is written past its end by QDP_extract (C85_extract_short)")
c("C86", P, ["Verif.Spmd.C86_spmd", "Verif.Spmd.C86_reproducible", "Verif.Spmd.C86_lexico", "Verif.Spmd.C86_cb2", "Verif.Spmd.C86_two_machines", "Verif.Spmd.C86_lone_sum", "Verif.Spmd.C86_refused"],
  "maps must be permutations accepted by Map::make, which all shifts are (C86_refused: one that is not); all nodes must run the same program (C86_lone_sum); the loops of a node are run by one thread here (C47, C48, C50)")
c("C87", P, ["Verif.LatticeIONet.C87_refines", "Verif.LatticeIONet.C87_write_partial", "Verif.LatticeIONet.C87_read", "Verif.LatticeIONet.C87_write_subset_partial", "Verif.LatticeIONet.C87_read_subset"],
  "the corollaries for writing need a strip of at least four bytes on machines that are not grids, as the clear-to-send message is taken from the data buffer (C27_short_rows)")
c("C88", A, ["Verif.SubLat.C88_step_partial", "Verif.SubLat.C88_unset", "Verif.SubLat.C88_partial", "Verif.SubLat.C88_no_leak", "Verif.SubLat.C88_sum", "Verif.SubLat.C88_sum_view", "Verif.SubLat.C88_sum_view_wrong", "Verif.SubLat.C88_scalar_first", "Verif.SubLat.C88_scalar_wrong", "Verif.SubLat.C88_scalar_empty", "Verif.SubLat.C88_poke_own", "Verif.SubLat.C88_assign_other_sites", "Verif.SubLat.C88_assign_wrong", "Verif.SubLat.C88_assign_abort", "Verif.SubLat.C88_scalar_subset"],
  "partial: for a sublattice with memory of its own the assignment of a number or scalar changes only the first site and is out of bounds without sites; poked components go to the wrong memory; assignment between sublattices compares sizes only; the sum of a view is over the first sites of the node; x[s] = v for a scalar x reads an uninitialised member")
c("C89", A, ["Verif.Reality.C89_floating", "Verif.Reality.C89_value_partial", "Verif.Reality.C89_promote", "Verif.Reality.C89_compound", "Verif.Reality.C89_div_int", "Verif.Reality.C89_div_int_complex", "Verif.Reality.C89_div_inconsistent", "Verif.Reality.C89_number_int", "Verif.Reality.C89_fn_int", "Verif.Reality.C89_false"],
  "partial: proved for floating-point fields and for integer fields where types do not matter; a complex field divided by an integer field is zero (the reciprocal is computed in the type of the divisor), a C++ number next to an integer field is cut to an integer, functions of integer fields are cut to integers")
c("C90", P, ["Verif.Gauss.C90_deviate", "Verif.Gauss.C90_field", "Verif.Gauss.C90_layout_independent", "Verif.Gauss.C90_no_reuse", "Verif.Gauss.C90_box_muller", "Verif.Gauss.C90_bounded", "Verif.Gauss.C90_normal", "Verif.Gauss.C90_zero_seed"],
  "log, sqrt, sin, cos are those of real numbers; the deviates carry the rounding of the code; seed zero (accepted by setrn) is excluded, the logarithm is then infinite at every site (C90_zero_seed)")
c("C91", A, ["Verif.Reunit.C91_special_unitary_partial", "Verif.Reunit.C91_det", "Verif.Reunit.C91_fixed", "Verif.Reunit.C91_phase", "Verif.Reunit.C91_unitary", "Verif.Reunit.C91_det_one_iff", "Verif.Reunit.C91_det_wrong", "Verif.Reunit.C91_no_pivot", "Verif.Reunit.C91_false", "Verif.Reunit.C91_flags"],
  "proved for Nc <= 3; false for Nc >= 4: the phase is taken from atan2(Im det, norm of the last column), line 384, so that the determinant stays what it is if it is real (C91_det_wrong), and the LU decomposition has no pivoting and divides by zero for matrices of SU(4) (C91_no_pivot). What holds for Nc >= 4: Q is unitary, sigmasq is the distance, and the exact condition under which det Q = 1 (C91_phase, C91_det_one_iff). Real numbers without rounding")
c("C92", A, ["Verif.Gauge.C92_plaquette_partial", "Verif.Gauge.C92_gauge_invariant", "Verif.Gauge.C92_bounds", "Verif.Gauge.C92_flat_iff", "Verif.Gauge.C92_pure_gauge", "Verif.Gauge.C92_link", "Verif.Gauge.C92_overflow", "Verif.Gauge.C92_false"],
  "proved where Vol*Nd*(Nd-1)*Nc and 12*Vol fit an int and Nd >= 2; false beyond: the product is of ints and overflows, for three colours in four dimensions from a volume of 2^31/36 on, e.g. 96^3 x 192 (C92_overflow, C92_false); `link` is divided by 12*Vol whatever Nd and Nc (C92_link). Real numbers without rounding")
c("C93", A, ["Verif.Gauge.C93_taproj_partial", "Verif.Gauge.C93_taproj_one", "Verif.Gauge.C93_expm12", "Verif.Gauge.C93_rgauge", "Verif.Gauge.C93_rgauge_more", "Verif.Gauge.C93_plaquette_unchanged"],
  "proved for Nc <= 3; with more colours where `reunit` succeeds, but for the determinant (C91 refutes it). The projection is not traceless for one colour (C93_taproj_one). `gaussian` is left out: the matrices it leaves are arbitrary. Real numbers without rounding")
c("C94", A, ["Verif.Gauge.C94_polyakov_partial", "Verif.Gauge.C94_cyclic", "Verif.Gauge.C94_gauge_invariant", "Verif.Gauge.C94_bound", "Verif.Gauge.C94_unit", "Verif.Gauge.C94_centre", "Verif.Gauge.C94_overflow", "Verif.Gauge.C94_false"],
  "proved where Nc*Vol fits an int; beyond, `Nc*Layout::vol()` is a product of ints and overflows, e.g. three colours on 128^3 x 384 (C94_overflow, C94_false). Directions out of range are not modelled. Real numbers without rounding")
c("C95", A, ["Verif.Dslash.C95_dslash", "Verif.Dslash.C95_dslash2_partial", "Verif.Dslash.C95_dslash2_other", "Verif.Dslash.C95_false", "Verif.Dslash.C95_checkerboard", "Verif.Dslash.C95_linear", "Verif.Dslash.C95_covariant", "Verif.Dslash.C95_gamma5", "Verif.Dslash.C95_adjoint", "Verif.Dslash.C95_free"],
  "proved for dslash on all lattices, for dslash2 with even extents and isign = +-1. With an odd extent dslash2 reads uninitialised sites of tmp, e.g. on 2 x 3 x 2 x 2 (C95_false); for isign other than +-1 it does nothing, where dslash takes the sign (C95_dslash2_other). Real numbers without rounding")
c("C96", A, ["Verif.FloatText.C96_float_partial", "Verif.FloatText.C96_double_partial", "Verif.FloatText.C96_exact_partial", "Verif.FloatText.C96_literals_partial", "Verif.FloatText.C96_error_float", "Verif.FloatText.C96_error_double", "Verif.FloatText.C96_enough", "Verif.FloatText.C96_nine_seventeen", "Verif.FloatText.C96_false_float", "Verif.FloatText.C96_false_double", "Verif.FloatText.C96_text_double", "Verif.FloatText.C96_text_float_false", "Verif.FloatText.C96_rewrite_double", "Verif.FloatText.C96_nonfinite", "Verif.FloatText.C96_nonfinite_list", "Verif.FloatText.C96_largest", "Verif.FloatText.C96_largest_ex", "Verif.FloatText.C96_stops"],
  "false: seven and fifteen digits do not identify a number (C96_false_float, C96_false_double). Proved: same length; every number is the one of the format next to the decimal next to it, relative error at most 1e-6 and 1e-14; numbers with few digits, and doubles next to a 15-digit decimal, come back unchanged; nine and seventeen digits would do for all. The largest doubles are dropped silently at the end of an array (C96_largest); arrays with inf or nan are not readable (C96_nonfinite) and as a list are cut off silently (C96_nonfinite_list). The tag is not modelled; printf and strtod are taken as correctly rounded")
c("C97", A, ["Verif.TextIO.C97_round_trip_partial", "Verif.TextIO.C97_negative_partial", "Verif.TextIO.C97_seed", "Verif.TextIO.C97_nodes", "Verif.TextIO.C97_after_failure", "Verif.TextIO.C97_written", "Verif.TextIO.C97_error", "Verif.TextIO.C97_false", "Verif.TextIO.C97_false_numbers", "Verif.TextIO.C97_digits_false", "Verif.TextIO.C97_joined", "Verif.TextIO.C97_cut", "Verif.TextIO.C97_empty", "Verif.TextIO.C97_initial", "Verif.TextIO.C97_initial_false", "Verif.TextIO.C97_reopen", "Verif.TextIO.C97_at_end", "Verif.TextIO.C97_twice", "Verif.TextIO.C97_file"],
  "false: complex numbers, vectors and matrices are written without white space between the numbers; all-ones objects of two or more numbers are never read back (C97_false). Proved: values with white space behind each of them come back on every node, floating-point numbers to six digits (error at most 1e-5, C97_error; not exactly, C97_digits_false); seeds come back exactly; objects whose numbers after the first are all negative come back; all nodes agree also after failures. Strings must not be empty or contain white space or zero bytes (C97_empty, C97_cut). TextBufferWriter::open(s) overwrites s (C97_initial); TextBufferReader::open after the end of a text leaves it failing (C97_reopen)")
c("C98", P, ["Verif.Hadron.C98_mesons", "Verif.Hadron.C98_currents", "Verif.Hadron.C98_all_slices", "Verif.Hadron.C98_source_outside", "Verif.Hadron.C98_meson_gauge", "Verif.Hadron.C98_pion", "Verif.Hadron.C98_pion_largest", "Verif.Hadron.C98_pion_slices", "Verif.Hadron.C98_momenta", "Verif.Hadron.C98_comment", "Verif.Hadron.C98_current_gauge", "Verif.Hadron.C98_ward", "Verif.Hadron.C98_conserved", "Verif.Hadron.C98_charge", "Verif.Hadron.C98_charge_written"],
  "exact arithmetic, up to four directions; sumMulti as one sum for each slice (C50 is about its single pass). A source beyond the end of the lattice gives a negative index (C98_source_outside)")
c("C99", P, ["Verif.Baryon.C99_baryons", "Verif.Baryon.C99_lambda", "Verif.Baryon.C99_gauge", "Verif.Baryon.C99_gauge_su3", "Verif.Baryon.C99_gauge_u3", "Verif.Baryon.C99_boundary", "Verif.Baryon.C99_beyond", "Verif.Baryon.C99_forward_only", "Verif.Baryon.C99_nonrelativistic", "Verif.Baryon.C99_projector", "Verif.Baryon.C99_spin", "Verif.Baryon.C99_charge_conjugation", "Verif.Baryon.C99_matrices", "Verif.Baryon.C99_values", "Verif.Baryon.C99_not_difference"],
  "exact arithmetic; sumMulti as one sum for each field and slice. The comment's time-reversed baryons are not computed (C99_forward_only); two comments have a wrong sign (C99_matrices)")
c("C100", A, ["Verif.Vec.C100_slots", "Verif.Vec.C100_peek", "Verif.Vec.C100_poke", "Verif.Vec.C100_extract", "Verif.Vec.C100_insert", "Verif.Vec.C100_coordinate", "Verif.Vec.C100_map", "Verif.Vec.C100_shift", "Verif.Vec.C100_expr", "Verif.Vec.C100_zero", "Verif.Vec.C100_copymask", "Verif.Vec.C100_write", "Verif.Vec.C100_read", "Verif.Vec.C100_same_file", "Verif.Vec.C100_site", "Verif.Vec.C100_sum_covers", "Verif.Vec.C100_sum_partial", "Verif.Vec.C100_sum_right_iff", "Verif.Vec.C100_sum_all", "Verif.Vec.C100_rb_iff", "Verif.Vec.C100_array", "Verif.Vec.C100_not_partition", "Verif.Vec.C100_gather2_wrong", "Verif.Vec.C100_statements_stop", "Verif.Vec.C100_create_never_returns", "Verif.Vec.C100_create_refuted"],
  "False in part: the sum over a contiguous subset adds whole vectors, so it is right for every field iff the subset starts and ends with whole vectors (C100_sum_right_iff; checkerboards: iff 2*INNER_LEN divides the volume, C100_rb_iff); gather_sites for two sites takes both from the first vector (C100_gather2_wrong; not reached, Map is an #error there); every lattice assignment stops the program, and with it Layout::create (C100_create_never_returns). What holds is proved for fields that exist")
c("C101", A, ["Verif.ArchiveFile.C101_mesplq", "Verif.ArchiveFile.C101_round_trip", "Verif.ArchiveFile.C101_checked", "Verif.ArchiveFile.C101_one_word", "Verif.ArchiveFile.C101_nan", "Verif.ArchiveFile.C101_wrong_accepted", "Verif.ArchiveFile.C101_three_rows", "Verif.ArchiveFile.C101_overflow"],
  "False in part: with mat_size = 18 the header says two rows and the file of the cold start is refused everywhere (C101_three_rows); unitary links of determinant -1 can be accepted and come back as others, every one (C101_wrong_accepted); a plaquette or link trace that is not a number passes (C101_nan); a product of 36 and the number of sites overflows int from 59652324 sites on, so that e.g. 96^3 x 192 cannot be saved or loaded (C101_overflow). The round trip holds for two rows and SU(3); measurements within 1.5e-6, numbers of links within 2^-25")
c("C102", A, ["Verif.ArrSums.C102_single", "Verif.ArrSums.C102_node_partial", "Verif.ArrSums.C102_whole_partial", "Verif.ArrSums.C102_short", "Verif.ArrSums.C102_lost", "Verif.ArrSums.C102_sumMulti", "Verif.ArrSums.C102_sumMulti_whole", "Verif.ArrSums.C102_laws"],
  "False in part: the sizes are not compared, a second array that is shorter is read behind its end (C102_short); on many nodes a thread whose number reaches the number of sites throws its share away, and OpenMP may give it one (C102_lost). For the many-node library the sum is proved for schedules that give such threads nothing")
c("C103", A, ["Verif.XmlField.C103_document", "Verif.XmlField.C103_one_node", "Verif.XmlField.C103_vector", "Verif.XmlField.C103_well_formed", "Verif.XmlField.C103_faithful", "Verif.XmlField.C103_sites", "Verif.XmlField.C103_coord", "Verif.XmlField.C103_index", "Verif.XmlField.C103_round_trip", "Verif.XmlField.C103_round_trip_words", "Verif.XmlField.C103_complex_parts", "Verif.XmlField.C103_seed_count", "Verif.XmlField.C103_char", "Verif.XmlField.C103_char_number"],
  "False in part: a seed with fewer than four elements is read behind the end of the array, with more the rest is ignored (C103_seed_count); `xml << c` of a character writes its number, and of all characters only '5' comes back (C103_char_number)")
c("C104", A, ["Verif.VecNodes.C104_program", "Verif.VecNodes.C104_right_partial", "Verif.VecNodes.C104_sum_iff", "Verif.VecNodes.C104_statements_nothing", "Verif.VecNodes.C104_statement_refuted", "Verif.VecNodes.C104_rng_not_set", "Verif.VecNodes.C104_shift_legal", "Verif.VecNodes.C104_shift"],
  "False: every assignment (`evaluate`) only prints that it is not implemented and leaves its destination, so that a program gives what it would give with its statements left out (C104_program, C104_statement_refuted), and the multipliers of the random number generator are never set (C104_rng_not_set); sums over subsets that lie in one stretch ending inside a vector take in other sites (C104_sum_iff). C104_right_partial: programs without statements, whose sums are over whole vectors, are right; missing is everything with a statement")
c("C105", A, ["Verif.VecNodes.C105_write", "Verif.VecNodes.C105_read", "Verif.VecNodes.C105_write_site", "Verif.VecNodes.C105_read_site", "Verif.VecNodes.C105_xml", "Verif.VecNodes.C105_between_machines", "Verif.VecArchive.C105_checksum_one", "Verif.VecArchive.C105_archive_one", "Verif.VecArchive.C105_read_one_partial", "Verif.VecArchive.C105_double_one", "Verif.VecArchive.C105_checksum_many", "Verif.VecArchive.C105_archive_many", "Verif.VecArchive.C105_link_refuted", "Verif.VecArchive.C105_read_many_refuted"],
  "False: readArchiv for many nodes adds `su3+k` with `su3` an array of arrays, so that it leaves the array at the second row of the first link, for every file (C105_link_refuted), and no node ever gets through (C105_read_many_refuted). All other parts are proved")
c("C106", A, ["Verif.LayoutCreate.C106_scalar_lexico", "Verif.LayoutCreate.C106_scalar_cb2", "Verif.LayoutCreate.C106_scalar_cb2_which", "Verif.LayoutCreate.C106_scalar_cb3d", "Verif.LayoutCreate.C106_scalar_cb32", "Verif.LayoutCreate.C106_scalar_cb32_which", "Verif.LayoutCreate.C106_par_partial", "Verif.LayoutCreate.C106_par_accepts", "Verif.LayoutCreate.C106_par_exact", "Verif.LayoutCreate.C106_par_checked", "Verif.LayoutCreate.C106_vec", "Verif.LayoutCreate.C106_large_refuted", "Verif.LayoutCreate.C106_geom_refuted", "Verif.LayoutCreate.C106_odd_block_refuted", "Verif.LayoutCreate.C106_negative_refuted"],
  "Proved on one node for extents that are not negative and a volume below 2^31, on many nodes if QMP divides the extents it is given, or with the debugging test of the sites, and in the vector library. False on many nodes for a machine shape given by -geom (C106_par_exact says exactly when), for 2^31 sites or more, and for two negative extents")
c("C107", A, ["Verif.LifeCycle.C107_par_exact", "Verif.LifeCycle.C107_scalar_exact", "Verif.LifeCycle.C107_parvec_exact", "Verif.LifeCycle.C107_vec_exact", "Verif.LifeCycle.C107_proper_partial", "Verif.LifeCycle.C107_again_refuted", "Verif.LifeCycle.C107_early_refuted", "Verif.LifeCycle.C107_late_refuted"],
  "What every call does after every sequence is characterised for all four libraries; proper sequences run unless they profile new statements in a second session. False: output or QDP_finalize before QDP_initialize is undefined on many nodes, any error after QDP_finalize frees memory twice on one node, and a second session with profiling is stopped")
c("C108", A, ["Verif.MultiArith.C108_arrays", "Verif.MultiArith.C108_right", "Verif.MultiArith.C108_divide", "Verif.MultiArith.C108_functions", "Verif.MultiArith.C108_compound", "Verif.MultiArith.C108_concat", "Verif.MultiArith.C108_left_partial", "Verif.MultiArith.C108_left_exact", "Verif.MultiArith.C108_norm2_partial", "Verif.MultiArith.C108_left_refuted", "Verif.MultiArith.C108_norm2_refuted"],
  "Exact for array with array, array with scalar on the right, scalar divided by array, functions, compound assignments, concat. False: s*a computes a[i]*s (wrong for matrices), s+a appends for strings; norm2 of an empty array is undefined and of complex numbers is not a norm. scalar - array cannot be instantiated (no unary minus), concat only for int")
c("C109", A, ["Verif.RecordInfo.C109_exact", "Verif.RecordInfo.C109_near_partial", "Verif.RecordInfo.C109_fermion", "Verif.RecordInfo.C109_refuted"],
  "Characterised for every type and every order; right for fermions and propagators in every order. False for colour matrices, spin matrices, complex and real fields: some orders state 0")
c("C110", A, ["Verif.StdStream.C110_streams_partial", "Verif.StdStream.C110_precision", "Verif.StdStream.C110_long_refuted"],
  "Proved for all programs and executions whose strings are shorter than 2^31 bytes; longer strings stop the program (length sent as int)")
c("C111", A, ["Verif.IntSum.C111_sound", "Verif.IntSum.C111_sum_partial", "Verif.IntSum.C111_serial_exact", "Verif.IntSum.C111_order_refuted", "Verif.IntSum.C111_large_refuted"],
  "A result that exists is exact; results exist on every machine when the absolute values add up to less than 2^31, on one thread exactly when all partial sums fit. False otherwise: the accumulator is an int, so whether a sum of value 0 is defined depends on the machine; the sum of 128 over 64^4 sites has no value")
c("C112", A, ["Verif.FloatSum.C112_error", "Verif.FloatSum.C112_depth", "Verif.FloatSum.C112_two_machines", "Verif.FloatSum.C112_finite", "Verif.FloatSum.C112_exact", "Verif.FloatSum.C112_inner_error", "Verif.FloatSum.C112_norm2_nonneg", "Verif.FloatSum.C112_norm2_error", "Verif.FloatSum.C112_order_refuted", "Verif.FloatSum.C112_finite_refuted", "Verif.FloatSum.C112_range_refuted", "Verif.FloatSum.C112_precision_refuted"],
  "Error bounds for every order of additions, with IEEE rounding including subnormal numbers; exactness for multiples of a power of two. False: independence of the machine (0 and 1 for the same field; finite and not finite); norm2 and innerProduct of single-precision fields multiply in single precision (double(s1*s1)), so values below 2^-75 have norm zero, values of 2^65 no finite norm, and the result has single precision only. Not modelled: spin and colour nested vectors (one level of vector is), the kernels of C69, extended precision and fused operations")
c("C113", A, ["Verif.Profile.C113_report", "Verif.Profile.C113_home", "Verif.Profile.C113_runs", "Verif.Profile.C113_level", "Verif.Profile.C113_home_partial", "Verif.Profile.C113_level_refuted", "Verif.Profile.C113_home_refuted", "Verif.Profile.C113_late_refuted", "Verif.Profile.C113_types_refuted", "Verif.Profile.C113_after_print_refuted", "Verif.Profile.C113_time_refuted"],
  "For every history, exactly what is printed (the linked lists through static variables equal a specification by first executions), that the loop ends, and exactly when the program aborts. START_CODE/END_CODE restore the level. False: a statement executed after a call is shown under the callee; a statement first executed at level 0 is never shown; statements of the same types are one; QDP_PUSH_PROFILE(l) leaves l to the caller; a new statement after printProfile aborts; times from 2^31 microseconds on are negative. Not modelled: the text of expressions, the printing of single statements at level 2, overflow of the int count")
c("C114", A, ["Verif.Database.C114_agree_partial", "Verif.Database.C114_read_refuted", "Verif.Database.C114_by_value_refuted"],
  "Every execution of every program that only writes and asks ends on all nodes with the results of one process; a failed call aborts all nodes. False: get, getBinary, keys, keysAndData abort the other nodes (notImplemented); binaryKeysAndData takes its vectors by value and returns nothing even on one node. FILEDB itself is not in the repository and is a parameter. Not modelled: the destructor (a call of close by the program)")
c("C115", A, ["Verif.Files.C115_fail", "Verif.Files.C115_write_partial", "Verif.Files.C115_reopen_refuted", "Verif.Files.C115_xml_reopen", "Verif.Files.C115_read", "Verif.Files.C115_read_refuted", "Verif.Files.C115_qio_partial", "Verif.Files.C115_qio_refuted"],
  "After every history, also wrong ones: if fail() is false the file opened last holds everything written since, what was read is its beginning, and the checksum agrees. False: opening an object that is open reports success and loses what is written, or leaves the variables unread, with a checksum as if all were well; a QIO object opened again leaks the first handle. XMLFileWriter aborts instead. Not modelled: stream buffers, full disks, seek (C19), several objects on one file")
c("C116", A, ["Verif.Hdf5Open.C116_open_partial", "Verif.Hdf5Open.C116_error", "Verif.Hdf5Open.C116_keep", "Verif.Hdf5Open.C116_remove_refuted"],
  "Proved for a library that makes the file when all nodes are in the collective call: every schedule ends in the specified state. Every node removes a file that is not an HDF5 file: with a library in which node 0 makes the file at once, a slow node removes the new file and all nodes write to a file without a name (C116_remove_refuted). The HDF5 library is a model")
c("C117", A, ["Verif.SetObjects.C117_intact_partial", "Verif.SetObjects.C117_kept", "Verif.SetObjects.C117_copy_refuted", "Verif.SetObjects.C117_assign_refuted"],
  "After every history a subset shows what it was meant to show as long as the set that was made to produce it has not been changed since. False beyond: the subsets of a copy point to the tables of the original and are undefined when that is destroyed or made again; a subset taken before its set is assigned to shows the old bounds with the new table. Simplified: freed memory is never used again by another array; default-constructed subsets are not read")
c("C118", A, ["Verif.DefaultSets.C118_make", "Verif.DefaultSets.C118_few_dimensions", "Verif.DefaultSets.C118_mcb_same", "Verif.DefaultSets.C118_rb_neighbour", "Verif.DefaultSets.C118_rb_odd_refuted", "Verif.DefaultSets.C118_rb3_neighbour", "Verif.DefaultSets.C118_mcb_neighbours", "Verif.DefaultSets.C118_mcb_two_refuted", "Verif.DefaultSets.C118_rb3_cb3d", "Verif.DefaultSets.C118_mcb_cb32"],
  "Membership proved on every good geometry of 3 to 29 dimensions; with fewer initialisation aborts. Neighbours differ in rb along even extents and in mcb within two steps on extents that are multiples of 4, or 2; false along an odd extent (rb) and on every extent that leaves 2 modulo 4 except 2 (mcb), although the 32-colour layout admits those. rb3 is two ordered halves on the 3D layout of four dimensions, mcb ordered ranges on the 32-colour layout of one process")
c("C119", A, ["Verif.Buffers.C119_writer_partial", "Verif.Buffers.C119_writer_exact", "Verif.Buffers.C119_checksum", "Verif.Buffers.C119_clear_refuted", "Verif.Buffers.C119_string_refuted", "Verif.Buffers.C119_reader_partial", "Verif.Buffers.C119_reader_checksum", "Verif.Buffers.C119_round_trip", "Verif.Buffers.C119_stuck_refuted", "Verif.Buffers.C119_clear_open"],
  "Contents and checksum given exactly for every history. The claim holds for writers made without a string and only written to, for readers whose reads stay within the string, and for every round trip. clear never empties a writer; a writer opened with a string writes over it, its checksum undefined when constructed from it; after a read beyond the end open, seek and rewind leave a reader stuck until clear. The primary node only; the string streams are those of the C++11 standard")
c("C120", A, ["Verif.SseSpin.C120_project", "Verif.SseSpin.C120_recon", "Verif.SseSpin.C120_add_recon", "Verif.SseSpin.C120_matrix", "Verif.SseSpin.C120_one_thread", "Verif.SseSpin.C120_empty_refuted", "Verif.SseSpin.C120_threads_refuted"],
  "Proved for every direction and any positive number of sites below 2^32, arrays aligned and not overlapping, exact arithmetic. For n_vec = 0 the number of rounds n_vec-1 wraps around and the loop runs off the array. The function given to the threads ignores the beginning of its share: with at least 2 threads and 3 sites the last site is never assigned. The lines including these headers are commented out in every architecture, so only code including them directly is affected. Transcribed by tools/gen_sse_spin.py; prefetches left out")
c("C121", A, ["Verif.VecSse.C121_matrix", "Verif.VecSse.C121_evaluate_partial", "Verif.VecSse.C121_scale", "Verif.VecSse.C121_complex", "Verif.VecSse.C121_in_place_refuted", "Verif.VecSse.C121_inside_vector_refuted", "Verif.VecSse.C121_table_refuted", "Verif.VecSse.C121_table_vectors"],
  "Proved: operator* for all matrices; evaluate for contiguous subsets of whole vectors when the destination is not the left operand (it may be the right one). Refuted: a = a*b (column 0 is stored before the left operand is read again), subsets beginning or ending inside a vector (whole vectors are assigned), subsets with a table (site numbers are used as vector numbers; that branch also uses an undeclared variable, so the file does not compile as it stands). Exact arithmetic; registers are assumed to survive between the asm statements, none of which declares what it sets")
c("C122", P, ["Verif.FusedSpin.C122_project", "Verif.FusedSpin.C122_reconstruct", "Verif.FusedSpin.C122_object", "Verif.FusedSpin.C122_hop"],
  "Exact arithmetic. The headers are installed, but the line that includes them is commented out (include/qdp_scalarsite_generic.h:16), so a program gets them only by including them itself. The choice of overloads by the compiler is taken as written in the signatures. The SSE counterparts call products of a library that is not in the repository and are not modelled")
c("C123", P, ["Verif.SseG5.C123_kernel", "Verif.SseG5.C123_statement", "Verif.SseG5.C123_same_as_general", "Verif.SseG5.C123_same_as_generic"],
  "Exact arithmetic, alignment not modelled. The header with the specialisations is installed but included nowhere, and does not compile: lines 940 and 985 use an undeclared name in the initialiser of an unused variable; the specialisations are modelled without these two lines")
c("C124", A, ["Verif.SseSite.C124_specs", "Verif.SseSite.C124_inside", "Verif.SseSite.C124_half_partial", "Verif.SseSite.C124_generic"],
  "The routines of libintrin are a parameter of the model (C124_generic: the conditions on them can be met). Missing: nothing is known about intrin_sse_mult_su3_mat_hwvec where d is r. Exact arithmetic; alignment and the selection of a specialisation by the compiler are not modelled")
c("C125", A, ["Verif.QioBuffer.C125_record_partial", "Verif.QioBuffer.C125_round_trip_partial", "Verif.QioBuffer.C125_str_partial", "Verif.QioBuffer.C125_arrays_partial", "Verif.QioBuffer.C125_other_records", "Verif.QioBuffer.C125_as_array", "Verif.QioBuffer.C125_reused_refuted", "Verif.QioBuffer.C125_checksum_refuted"],
  "Below 2^31 bytes the bytes come back for new readers, on every machine. A reader that failed before stays failed and a used reader keeps its checksum when the next record is read (proved for all records). A record of single bytes of any kind is accepted, as is an empty one")
c("C126", A, ["Verif.OneBased.C126_elements", "Verif.OneBased.C126_read", "Verif.OneBased.C126_ref", "Verif.OneBased.C126_rows", "Verif.OneBased.C126_bounds", "Verif.OneBased.C126_size", "Verif.OneBased.C126_arithmetic", "Verif.OneBased.C126_resize", "Verif.OneBased.C126_zero_refuted", "Verif.OneBased.C126_size_refuted"],
  "Elements, arithmetic and the bounds of rank 1 hold for all arrays. From rank 2 on index 0 is the last element of the row before, size() is the range of the last index and not of the first, and resizing keeps nothing")
c("C127", A, ["Verif.Component.C127_peek", "Verif.Component.C127_poke", "Verif.Component.C127_peek_poke", "Verif.Component.C127_poke_peek", "Verif.Component.C127_others", "Verif.Component.C127_all", "Verif.Component.C127_commute", "Verif.Component.C127_field", "Verif.Component.C127_row", "Verif.Component.C127_column_refuted"],
  "Proved for all types, sizes and values with indices in range. Nothing is refused: beyond the range of a vector the access is undefined, beyond the columns of a matrix it is the first column of the next row (proved for all matrices). Pokes into sublattices are in C88")
c("C128", A, ["Verif.Where.C128_arith", "Verif.Where.C128_compare", "Verif.Where.C128_value", "Verif.Where.C128_defined", "Verif.Where.C128_assign", "Verif.Where.C128_guard_refuted", "Verif.Where.C128_number_refuted", "Verif.Where.C128_cut_refuted", "Verif.Where.C128_where", "Verif.Where.C128_copymask"],
  "Proved for expressions with a value: values agree with C++ if C++ numbers compared are ints and those in where are 0 or 1. Refuted: a guard does not guard (all parts are evaluated, and an expression has a value exactly if all parts have), a number in where becomes a bool, a number compared with an integer field is cut. Fields of floating point words in the expressions are not modelled; where of a real with a complex object does not compile")
c("C129", A, ["Verif.Singleton.C129_one", "Verif.Singleton.C129_exit", "Verif.Singleton.C129_outlives", "Verif.Singleton.C129_allocator", "Verif.Singleton.C129_longevity_refuted", "Verif.Singleton.C129_memory_refuted", "Verif.Singleton.C129_dead_refuted", "Verif.Singleton.C129_phoenix_refuted"],
  "Proved for the policies default, phoenix and NoDestroy with constructors that do not depend on themselves, and for the end of the program with destructors that use only what their constructors used; for NoDestroy alone with any destructors. Refuted: SingletonWithLongevity overruns its array, a failed creation is not noticed, a destructor that uses another singleton can meet a dead reference, a revived phoenix is never destroyed. Threads (SingleThreaded is the only model) and exceptions of constructors are not modelled")
c("C130", A, ["Verif.Bits.C130_bits", "Verif.Bits.C130_shift", "Verif.Bits.C130_value", "Verif.Bits.C130_logic", "Verif.Bits.C130_compound", "Verif.Bits.C130_assign", "Verif.Bits.C130_undefined", "Verif.Bits.C130_bool_refuted", "Verif.Bits.C130_shiftbool_refuted", "Verif.Bits.C130_number_refuted"],
  "Proved for all words and all expressions without arithmetic of two booleans, shifts of booleans, and numbers other than 0 and 1 next to booleans; refuted for these. ~ does not compile (no overload for the words) and is not modelled; a left shift that loses bits is taken as gcc defines it")
c("C131", A, ["Verif.Bagel.C131_assign", "Verif.Bagel.C131_staggered_refuted", "Verif.Bagel.C131_any_spin_refuted"],
  "Proved for Dirac fermions (four spin components), over a field and hence up to rounding. The routines are not in the repository: what they write is assumed (Rout.app), as their names and the comments at the calls say. Refuted for other numbers of spin components, for which the count 4 per site is wrong. The reductions of the same header are in C132; the matrices (qdp_scalarsite_bagel_qdp_linalg.h) in C133")
c("C132", A, ["Verif.BagelReduce.C132_norm2", "Verif.BagelReduce.C132_inner", "Verif.BagelReduce.C132_inner_real", "Verif.BagelReduce.C132_arrays", "Verif.BagelReduce.C132_kinds", "Verif.BagelReduce.C132_lengths_refuted", "Verif.BagelReduce.C132_staggered_refuted"],
  "Proved for Dirac fermions, over a field and hence up to rounding and the order of the sum. The routines are not in the repository: what they return is assumed (red, nrm, cdot, cdotr); the sum over the nodes is taken as exact. Refuted for arrays of different lengths and for other numbers of spin components")
c("C133", A, ["Verif.BagelMat.C133_assign_partial", "Verif.BagelMat.C133_alias_open"],
  "Proved over a field with conjugation, hence up to rounding. The routines are not in the repository: what they write is assumed (Lib.Ok, rows), for products only if the destination is not an operand. Missing: d = d * r and the like; from the assumption it cannot be shown (C133_alias_open)")
