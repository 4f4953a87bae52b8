{
 "claims": [
  {
   "property": "C01",
   "status": "proved",
   "theorems": [
    "Verif.Layout.C01_lexico",
    "Verif.Layout.C01_cb2",
    "Verif.Layout.C01_cb3d",
    "Verif.Layout.C01_cb32",
    "Verif.Layout.C01_cb2_odd_fails",
    "Verif.Layout.C01_cb2_extent_one_ub"
   ],
   "note": "any Nd, any extents with the evenness each ordering needs, volume < 2^31; overflow and division by zero are modelled as undefined behaviour"
  },
  {
   "property": "C02",
   "status": "proved",
   "theorems": [
    "Verif.ParLayout.C02_lexico",
    "Verif.ParLayout.C02_cb2",
    "Verif.ParLayout.C02_cb3d",
    "Verif.ParLayout.C02_subgrid",
    "Verif.ParLayout.C02_scalar",
    "Verif.ParLayout.lexMachine_good",
    "Verif.ParLayout.C02_cb2_odd_block_fails"
   ],
   "note": "QMP node numbering enters as a hypothesis (mutually inverse maps), the machine grid must cut the lattice into equal blocks; the 32-colour ordering does not compile on multi-node builds"
  },
  {
   "property": "C03",
   "status": "proved",
   "theorems": [
    "Verif.Layout.C03_cb2",
    "Verif.Layout.C03_cb3d",
    "Verif.Layout.C03_halves",
    "Verif.ParLayout.C03_par_cb2",
    "Verif.ParLayout.C03_par_cb3d"
   ],
   "note": "single and multi node"
  },
  {
   "property": "C04",
   "status": "proved",
   "theorems": [
    "Verif.Subset.C04_make",
    "Verif.Subset.C04_partition",
    "Verif.Subset.C04_illegal_colour"
   ],
   "note": "for every layout satisfying C02 (all orderings, one or many nodes) and every colour function"
  },
  {
   "property": "C05",
   "status": "proved",
   "theorems": [
    "Verif.Subset.C05_ordered",
    "Verif.Subset.C05_all",
    "Verif.Subset.C05_rb_cb2"
   ],
   "note": ""
  },
  {
   "property": "C06",
   "status": "proved",
   "theorems": [
    "Verif.Shift.C06_swap",
    "Verif.Shift.C06_odd_fails"
   ],
   "note": "even extent in the shift direction is necessary and sufficient"
  },
  {
   "property": "C07",
   "status": "proved",
   "theorems": [
    "Verif.Shift.C07_shift",
    "Verif.Shift.C07_map",
    "Verif.Shift.C07_isign"
   ],
   "note": "any expression tree, any ordering satisfying C02 with one node; also any user map; extents up to 2^31/5 (4*nrow overflows beyond)"
  },
  {
   "property": "C08",
   "status": "proved",
   "theorems": [
    "Verif.Shift.C08_shifts"
   ],
   "note": ""
  },
  {
   "property": "C09",
   "status": "proved",
   "theorems": [
    "Verif.ParMap.C09_map",
    "Verif.ParMap.C09_shift",
    "Verif.ParMap.C09_shift_lexico",
    "Verif.ParMap.C09_shift_cb2"
   ],
   "note": "any permutation whose make is accepted on every node; nearest-neighbour shift shown to be accepted on every machine grid; QMP delivery assumed"
  },
  {
   "property": "C10",
   "status": "proved",
   "theorems": [
    "Verif.ParMap.C10_schedules",
    "Verif.ParMap.C10_needs_bijection"
   ],
   "note": ""
  },
  {
   "property": "C54",
   "status": "partial",
   "theorems": [
    "Verif.Util.C54_uniquify_partial",
    "Verif.Util.C54_empty_ub"
   ],
   "note": "true for non-empty lists; the empty list is read out of bounds"
  },
  {
   "property": "C11",
   "status": "proved",
   "theorems": [
    "Verif.Seed.C11_mul",
    "Verif.Seed.C11_unique",
    "Verif.Seed.C11_shl",
    "Verif.Seed.C11_or",
    "Verif.Seed.C11_assign",
    "Verif.Seed.C11_eq"
   ],
   "note": ""
  },
  {
   "property": "C16",
   "status": "proved",
   "theorems": [
    "Verif.Seed.C16_exact",
    "Verif.Seed.C16_closed",
    "Verif.Seed.C16_double",
    "Verif.Seed.C16_float_one",
    "Verif.Seed.C16_reaches_one"
   ],
   "note": "the IEEE rounding is modelled as round-half-even to p bits; the value 1.0 is reached, as the statement says"
  },
  {
   "property": "C12",
   "status": "proved",
   "theorems": [
    "Verif.Rng.C12_layout_independent"
   ],
   "note": "volume < 2^30 (numbits overflows above: numbits_overflow); idle threads are the subject of C15"
  },
  {
   "property": "C13",
   "status": "proved",
   "theorems": [
    "Verif.Rng.C13_sequence",
    "Verif.Rng.C13_no_reuse",
    "Verif.Rng.C13_seed_skipped",
    "Verif.Rng.C13_distinct"
   ],
   "note": "any history of scalar and lattice draws; C13_distinct adds that for odd seeds different elements are different numbers"
  },
  {
   "property": "C14",
   "status": "proved",
   "theorems": [
    "Verif.Rng.C14_replay"
   ],
   "note": ""
  },
  {
   "property": "C15",
   "status": "partial",
   "theorems": [
    "Verif.Rng.C15_seed_partial",
    "Verif.Rng.C15_static_partial",
    "Verif.Rng.C15_empty_node",
    "Verif.Rng.C15_nodes_diverge",
    "Verif.Rng.C15_idle_thread"
   ],
   "note": "false as stated: a node without sites keeps its seed, and an idle thread of the single-node code copies an uninitialised seed; proved when neither happens"
  },
  {
   "property": "C17",
   "status": "partial",
   "theorems": [
    "Verif.Rannyu.C17_rannyu_partial",
    "Verif.Rannyu.C17_refuted",
    "Verif.Rannyu.C17_no_overflow"
   ],
   "note": "false as stated: the top limb is shifted where it should be masked; lower 36 bits proved for every state"
  },
  {
   "property": "C18",
   "status": "partial",
   "theorems": [
    "Verif.Rannyu.C18_seed_partial",
    "Verif.Rannyu.C18_inited_partial",
    "Verif.Rannyu.C18_refuted",
    "Verif.Rannyu.C18_state"
   ],
   "note": "false as stated: a setrn before the first random() is ignored, for every seed; true once a random() has been called"
  },
  {
   "property": "C19",
   "status": "proved",
   "theorems": [
    "Verif.Crc.C19_crc",
    "Verif.Crc.C19_table"
   ],
   "note": ""
  },
  {
   "property": "C20",
   "status": "proved",
   "theorems": [
    "Verif.Crc.C20_incremental",
    "Verif.Crc.C20_pieces"
   ],
   "note": ""
  },
  {
   "property": "C21",
   "status": "proved",
   "theorems": [
    "Verif.Crc.C21_burst",
    "Verif.Crc.C21_word"
   ],
   "note": ""
  },
  {
   "property": "C38",
   "status": "proved",
   "theorems": [
    "Verif.Multi.C38_addresses",
    "Verif.Multi.C38_no_overflow"
   ],
   "note": ""
  },
  {
   "property": "C39",
   "status": "partial",
   "theorems": [
    "Verif.Multi.C39_index_partial",
    "Verif.Multi.C39_cubic_partial",
    "Verif.Multi.C39_call_reversed_partial",
    "Verif.Multi.C39_palindrome_partial",
    "Verif.Multi.C39_strides_disagree",
    "Verif.Multi.C39_collision"
   ],
   "note": "false as stated: the call operators of multiNd use the extents in the opposite order, so for unequal extents they collide and leave the allocation; index lists and flat offsets proved for every rank and shape"
  },
  {
   "property": "C40",
   "status": "partial",
   "theorems": [
    "Verif.Multi.C40_multi1d",
    "Verif.Multi.C40_multiNd_partial",
    "Verif.Multi.C40_self_ub",
    "Verif.Multi.C40_independent",
    "Verif.Multi.C40_view_abort"
   ],
   "note": "multi1d fully; for higher ranks self-assignment of a non-empty array reads freed/uninitialised memory"
  },
  {
   "property": "C41",
   "status": "partial",
   "theorems": [
    "Verif.Multi.C41_lt",
    "Verif.Multi.C41_trichotomy_partial",
    "Verif.Multi.C41_empty_not_equal"
   ],
   "note": "== is false for two empty arrays; everything else holds"
  },
  {
   "property": "C56",
   "status": "partial",
   "theorems": [
    "Verif.Multi.C56_scalar_partial",
    "Verif.Multi.C56_alias"
   ],
   "note": "false when the scalar is an element of the array other than the last"
  },
  {
   "property": "C22",
   "status": "partial",
   "theorems": [
    "Verif.ByteOrder.C22_swap_partial",
    "Verif.ByteOrder.C22_unsupported",
    "Verif.ByteOrder.C22_never_ends"
   ],
   "note": "every supported size and fewer than 2^32 elements; with 2^32 elements or more the unsigned int counter wraps and the loop never ends"
  },
  {
   "property": "C23",
   "status": "partial",
   "theorems": [
    "Verif.BinIO.C23_portable_partial",
    "Verif.BinIO.C23_bfread_bfwrite_partial",
    "Verif.BinIO.C23_count",
    "Verif.BinIO.C23_size"
   ],
   "note": "supported sizes and, for elements of more than a byte, fewer than 2^32 of them; outside these limits a little-endian host hangs or stops while a big-endian one writes"
  },
  {
   "property": "C24",
   "status": "proved",
   "theorems": [
    "Verif.BinIO.C24_sequences",
    "Verif.BinIO.C24_multi2d",
    "Verif.BinIO.C24_multi3d",
    "Verif.BinIO.C24_multi4d",
    "Verif.BinIO.C24_multi5d",
    "Verif.BinIO.C24_multiNd",
    "Verif.BinIO.C24_pair",
    "Verif.BinIO.C24_map",
    "Verif.BinIO.C24_complex",
    "Verif.BinIO.C24_desc",
    "Verif.BinIO.C24_roundtrip"
   ],
   "note": "closure theorems, so any nesting; multiNd of rank at least 1 (rank 0 reads nz[0] of an empty array)"
  },
  {
   "property": "C25",
   "status": "proved",
   "theorems": [
    "Verif.BinIO.C25_line"
   ],
   "note": ""
  },
  {
   "property": "C26",
   "status": "partial",
   "theorems": [
    "Verif.BinIO.C26_checksum_partial",
    "Verif.BinIO.C26_truncated",
    "Verif.BinIO.C26_little_endian",
    "Verif.BinIO.C26_null"
   ],
   "note": "true for all array calls and for line reads that return the line; false for truncated lines, for the little-endian readers and for empty writes from a null pointer"
  },
  {
   "property": "C55",
   "status": "partial",
   "theorems": [
    "Verif.BinIO.C55_file_partial",
    "Verif.BinIO.C55_buffer",
    "Verif.BinIO.C55_differ"
   ],
   "note": "true for files, false for memory buffers"
  },
  {
   "property": "C27",
   "status": "partial",
   "theorems": [
    "Verif.LatticeIO.C27_par_partial",
    "Verif.LatticeIO.C27_single",
    "Verif.LatticeIO.C27_same_file_partial",
    "Verif.LatticeIO.C27_offset",
    "Verif.LatticeIO.C27_short_rows"
   ],
   "note": "every geometry, ordering, byte order; multi-node machines that are not grids need rows of at least 4 bytes, since the 4-byte clear-to-send message goes through the row buffer (otherwise undefined, proved)"
  },
  {
   "property": "C28",
   "status": "partial",
   "theorems": [
    "Verif.LatticeIO.C28_par",
    "Verif.LatticeIO.C28_single",
    "Verif.LatticeIO.C28_other_machine_partial"
   ],
   "note": "reading proved for all; the write/read composition inherits the row condition of C27"
  },
  {
   "property": "C29",
   "status": "partial",
   "theorems": [
    "Verif.LatticeIO.C29_write_partial",
    "Verif.LatticeIO.C29_read",
    "Verif.LatticeIO.C29_single",
    "Verif.LatticeIO.C29_site_partial",
    "Verif.LatticeIO.C29_site_single",
    "Verif.LatticeIO.C29_short_site"
   ],
   "note": "as C27: rows (or single elements) shorter than 4 bytes cannot be written on non-grid machines"
  },
  {
   "property": "C30",
   "status": "partial",
   "theorems": [
    "Verif.LatticeIO.C30_write_partial",
    "Verif.LatticeIO.C30_read_partial",
    "Verif.LatticeIO.C30_single",
    "Verif.LatticeIO.C30_reject",
    "Verif.LatticeIO.C30_one_dimension"
   ],
   "note": "two or more dimensions (one-dimensional slices stop a multi-node program, proved) and the row condition of C27"
  },
  {
   "property": "C31",
   "status": "proved",
   "theorems": [
    "Verif.MapObj.C31"
   ],
   "note": ""
  },
  {
   "property": "C32",
   "status": "partial",
   "theorems": [
    "Verif.MapDisk.C32_C33_history_partial",
    "Verif.MapDisk.C32_get_partial",
    "Verif.MapDisk.C32_lookup_then_insert",
    "Verif.MapDisk.C32_update_then_insert",
    "Verif.MapDisk.C32_longer_update",
    "Verif.MapDisk.C32_keys_append"
   ],
   "note": "true of every history in which a new key is inserted only while the stream stands at the end of the file and updates do not outgrow their slot; false otherwise: after a lookup or an update a new record overwrites older ones (proved for all keys and values)"
  },
  {
   "property": "C33",
   "status": "partial",
   "theorems": [
    "Verif.MapDisk.C32_C33_history_partial",
    "Verif.MapDisk.C33_close_partial",
    "Verif.MapDisk.C33_foreign"
   ],
   "note": "same side conditions as C32, any number of open/close cycles, hosts of either byte order; files shorter than 2^63 bytes; a file with another magic string is refused"
  },
  {
   "property": "C34",
   "status": "partial",
   "theorems": [
    "Verif.MapDisk.C34_crash_partial",
    "Verif.MapDisk.C34_never_flushed",
    "Verif.MapDisk.C34_torn_link"
   ],
   "note": "every prefix of the writes of insertions keeps the flushed map; a file never flushed does not open; a write of the link to the map torn inside its 16 bytes loses the file"
  },
  {
   "property": "C35",
   "status": "partial",
   "theorems": [
    "Verif.MapDisk.C35_undefined",
    "Verif.MapDisk.C35_roundtrip_partial",
    "Verif.MapDisk.C35_create",
    "Verif.MapDisk.C35_insert"
   ],
   "note": "with a 64-bit streamoff the divisor is 0, so the conversion is undefined and even creating a file is; with a wider type the round trip holds"
  },
  {
   "property": "C36",
   "status": "partial",
   "theorems": [
    "Verif.MapDisk.C36_stale_keys",
    "Verif.MapDisk.C36_clean_partial",
    "Verif.MapDisk.C36_user_data"
   ],
   "note": "keys of the previous file stay visible; true for an object whose map is empty"
  },
  {
   "property": "C37",
   "status": "proved",
   "theorems": [
    "Verif.MapMulti.C37",
    "Verif.MapMulti.C37_fileExists",
    "Verif.MapMulti.C37_fileExists_open",
    "Verif.MapMulti.C37_after_close"
   ],
   "note": "for files written by histories as in C32/C33; also shown: fileExists before open is always true, and calls after close use deleted objects"
  },
  {
   "property": "C42",
   "status": "proved",
   "theorems": [
    "Verif.Spin.C42_vector",
    "Verif.Spin.C42_left",
    "Verif.Spin.C42_right",
    "Verif.Spin.C42_vector_DP",
    "Verif.Spin.C42_left_DP",
    "Verif.Spin.C42_right_DP",
    "Verif.Spin.C42_clifford",
    "Verif.Spin.C42_run_time",
    "Verif.Spin.mulVec_mul"
   ],
   "note": "components in any additive group with multiplication by i; tables transcribed mechanically (tools/gen_spin.py)"
  },
  {
   "property": "C43",
   "status": "proved",
   "theorems": [
    "Verif.Spin.C43_project",
    "Verif.Spin.C43_twice",
    "Verif.Spin.C43_opposite",
    "Verif.Spin.C43_link",
    "Verif.Spin.C43_inline_project",
    "Verif.Spin.C43_inline_recon",
    "Verif.Spin.C43_inline_add_recon",
    "Verif.Spin.C43_inline",
    "Verif.Spin.C43_run_time",
    "Verif.Spin.C43_run_time_illegal"
   ],
   "note": "generic functions and the inlined ones for any number of sites; exact arithmetic; SSE versions not modelled"
  },
  {
   "property": "C57",
   "status": "proved",
   "theorems": [
    "Verif.Spin.C57_chiral",
    "Verif.Spin.C57_not_DP"
   ],
   "note": "default basis; in the Dirac-Pauli basis the functions are not the chirality projectors (proved)"
  },
  {
   "property": "C47",
   "status": "proved",
   "theorems": [
    "Verif.Dispatch.C47_cover",
    "Verif.Dispatch.C47_disjoint",
    "Verif.Dispatch.C47_overflow",
    "Verif.Evaluate.C47_serial",
    "Verif.Evaluate.C47_progress"
   ],
   "note": "product of sites and active threads below 2^31 as stated; above it the bound of the last thread overflows (proved)"
  },
  {
   "property": "C48",
   "status": "proved",
   "theorems": [
    "Verif.Evaluate.C48_assign",
    "Verif.Evaluate.C48_multi_node",
    "Verif.Evaluate.C48_subset",
    "Verif.Evaluate.C48_shift_in_place",
    "Verif.Evaluate.C48_shift_race"
   ],
   "note": "evaluation of the right hand side at one site is one step, storing is another; the shift hazard is proved for one thread and as a race"
  },
  {
   "property": "C49",
   "status": "proved",
   "theorems": [
    "Verif.GlobalSum.C49_direction",
    "Verif.GlobalSum.C49_order",
    "Verif.GlobalSum.C49_identical",
    "Verif.GlobalSum.C49_sum"
   ],
   "note": ""
  },
  {
   "property": "C50",
   "status": "partial",
   "theorems": [
    "Verif.Sums.C50_sum",
    "Verif.Sums.C50_multi",
    "Verif.Sums.C50_multi_par",
    "Verif.Sums.C50_subset",
    "Verif.Sums.C50_partition",
    "Verif.Sums.C50_nodes",
    "Verif.Sums.C50_par_partial",
    "Verif.Sums.C50_whole_partial",
    "Verif.Sums.C50_gate",
    "Verif.Sums.C50_lost"
   ],
   "note": "single-node code: every distribution of iterations and every order of critical sections. Many-node sum: a thread whose number reaches the number of sites never adds its result, so it holds for schedules that give such threads nothing (OpenMP does not promise this; exact loss proved)"
  },
  {
   "property": "C58",
   "status": "partial",
   "theorems": [
    "Verif.Extremes.C58_node_partial",
    "Verif.Extremes.C58_nodes_partial",
    "Verif.Extremes.C58_nan_first",
    "Verif.Extremes.C58_nan_later",
    "Verif.Extremes.C58_layout_dependent"
   ],
   "note": "true without not-a-numbers; with one, the result depends on whether it sits on the first site of a node"
  },
  {
   "property": "C59",
   "status": "partial",
   "theorems": [
    "Verif.Extremes.C59_word",
    "Verif.Extremes.C59_scalar",
    "Verif.Extremes.C59_complex",
    "Verif.Extremes.C59_vector",
    "Verif.Extremes.C59_matrix",
    "Verif.Extremes.C59_lattice",
    "Verif.Extremes.C59_normal_partial",
    "Verif.Extremes.C59_matrix_normal",
    "Verif.Extremes.C59_matrix_normal_wrong",
    "Verif.Extremes.C59_matrix_normal_inf",
    "Verif.Extremes.C59_reduce_undefined",
    "Verif.Extremes.C59_reduce_partial",
    "Verif.Extremes.C59_one_node"
   ],
   "note": "isnormal of a matrix calls isinf, so it is false for every matrix of normal numbers; the reductions over nodes access bools as unsigned ints"
  },
  {
   "property": "C44",
   "status": "proved",
   "theorems": [
    "Verif.Archive.C44_three_rows",
    "Verif.Archive.C44_first_rows",
    "Verif.Archive.C44_third_row",
    "Verif.Archive.C44_orthogonal",
    "Verif.Archive.C44_det",
    "Verif.Archive.C44_completes",
    "Verif.Archive.C44_only",
    "Verif.Archive.C44_field"
   ],
   "note": "exact arithmetic over any commutative ring; storage as 32-bit numbers is an abstract conversion assumed to be undone by loading"
  },
  {
   "property": "C45",
   "status": "proved",
   "theorems": [
    "Verif.Archive.C45_checksum_par",
    "Verif.Archive.C45_checksum_single",
    "Verif.Archive.C45_size",
    "Verif.Archive.C45_file",
    "Verif.Archive.C45_read",
    "Verif.Archive.C45_double"
   ],
   "note": "both codes, 12 and 18 numbers, both byte orders"
  },
  {
   "property": "C46",
   "status": "partial",
   "theorems": [
    "Verif.ArchiveHdr.C46_fields_partial",
    "Verif.ArchiveHdr.C46_boundary",
    "Verif.ArchiveHdr.C46_format",
    "Verif.ArchiveHdr.C46_blanks",
    "Verif.ArchiveHdr.C46_long_label",
    "Verif.ArchiveHdr.C46_xml_checksum",
    "Verif.ArchiveHdr.C46_accepts",
    "Verif.ArchiveHdr.C46_twice_refuted"
   ],
   "note": "sizes, checksum, sequence number and labels without leading blanks come back; boundary conditions, number of rows, size of numbers and long labels do not (proved for all headers). Accepted headers are complete and have the sizes of the lattice; a header with four sizes that do not cover the four directions is compared through uninitialised numbers"
  },
  {
   "property": "C51",
   "status": "partial",
   "theorems": [
    "Verif.Alloc.C51_live_partial",
    "Verif.Alloc.C51_allocate_partial",
    "Verif.Alloc.C51_free_partial",
    "Verif.Alloc.C51_unknown_partial",
    "Verif.Alloc.C51_all_freed_partial",
    "Verif.Alloc.C51_wrap"
   ],
   "note": "all histories and answers of new; sizes below 2^64 minus the alignment (above, the request wraps around: proved)"
  },
  {
   "property": "C52",
   "status": "partial",
   "theorems": [
    "Verif.Alloc.C52_live_partial",
    "Verif.Alloc.C52_free_partial",
    "Verif.Alloc.C52_exhausted",
    "Verif.Alloc.C52_unknown",
    "Verif.Alloc.C52_wrap",
    "Verif.Alloc.C52_pool_size",
    "Verif.Alloc.C52_before_init"
   ],
   "note": "alignment, disjointness, containment and release hold for every history including exhaustion; exhaustion is returned as a null pointer and unknown pointers are accepted (proved)"
  },
  {
   "property": "C53",
   "status": "partial",
   "theorems": [
    "Verif.StopWatch.C53_shown_partial",
    "Verif.StopWatch.C53_intervals",
    "Verif.StopWatch.C53_normalised",
    "Verif.StopWatch.C53_stop_idle",
    "Verif.StopWatch.C53_clock_failure",
    "Verif.StopWatch.C53_start_twice",
    "Verif.StopWatch.C53_not_normalised",
    "Verif.StopWatch.C53_backwards"
   ],
   "note": "sum of intervals for every history with a working clock; the misuse and backwards-clock parts of the claim are refuted"
  },
  {
   "property": "C60",
   "status": "partial",
   "theorems": [
    "Verif.Blas.C60_tidy",
    "Verif.Blas.C60_same_as_general",
    "Verif.Blas.C60_all_partial"
   ],
   "note": "exact arithmetic; 74 of 83 specialisations on all subsets, the other nine on subsets without the last site of the node"
  },
  {
   "property": "C61",
   "status": "partial",
   "theorems": [
    "Verif.Blas.C60_tidy",
    "Verif.Blas.C60_all_partial",
    "Verif.Blas.C61_last_site"
   ],
   "note": "holds for 74 specialisations (executions without undefined behaviour); the nine with a _g5ProjPlus kernel of seven read behind the field at the last site (proved for all fields, one thread, contiguous subsets)"
  },
  {
   "property": "C62",
   "status": "proved",
   "theorems": [
    "Verif.Site.C62_adjMul",
    "Verif.Site.C62_mulAdj",
    "Verif.Site.C62_adjMulAdj",
    "Verif.Site.C62_traceMul",
    "Verif.Site.C62_traceKMul",
    "Verif.Site.C62_realTrace",
    "Verif.Site.C62_inner",
    "Verif.Site.C62_innerReal",
    "Verif.Site.C62_norm2",
    "Verif.Site.C62_traceSpinOuter"
   ],
   "note": "exact arithmetic; where an overload is missing (the program does not compile) nothing is claimed"
  },
  {
   "property": "C63",
   "status": "partial",
   "theorems": [
    "Verif.Site.C63_imagTrace_partial",
    "Verif.Site.C63_imagTrace_false",
    "Verif.Site.C63_imagTrace_real"
   ],
   "note": "true for complex types; on real types imagTrace returns the trace itself (proved for all of them)"
  },
  {
   "property": "C64",
   "status": "proved",
   "theorems": [
    "Verif.Site.C64_mul",
    "Verif.Site.C64_adj",
    "Verif.Site.C64_conj",
    "Verif.Site.C64_transpose",
    "Verif.Site.C64_trace",
    "Verif.Site.C64_inner",
    "Verif.Site.C64_norm2",
    "Verif.Site.C64_outer",
    "Verif.Site.C64_adj_mul",
    "Verif.Site.C64_trace_cyclic"
   ],
   "note": "exact arithmetic"
  },
  {
   "property": "C65",
   "status": "proved",
   "theorems": [
    "Verif.Contract.C65_colorContract",
    "Verif.Contract.C65_quarkContractXX",
    "Verif.Contract.C65_vecContract3",
    "Verif.Contract.C65_colorVectorContract",
    "Verif.Contract.C65_colorCrossProduct",
    "Verif.Contract.C65_localColorInnerProduct",
    "Verif.Contract.C65_det",
    "Verif.Contract.C65_trace",
    "Verif.Contract.C65_cross",
    "Verif.Contract.C65_symm",
    "Verif.Contract.C65_spin",
    "Verif.Contract.C65_traceSpin",
    "Verif.Contract.C65_spinColorInner",
    "Verif.Contract.C65_left",
    "Verif.Contract.C65_right"
   ],
   "note": "three colours (other numbers of colours stop the program); exact arithmetic"
  },
  {
   "property": "C66",
   "status": "proved",
   "theorems": [
    "Verif.Site.C66_build",
    "Verif.Site.C66_not_compiled"
   ],
   "note": "value at a site; C66_not_compiled shows an expression whose rewritten form does not compile although the plain one would"
  },
  {
   "property": "C67",
   "status": "proved",
   "theorems": [
    "Verif.Su3.C67_specs"
   ],
   "note": "exact arithmetic"
  },
  {
   "property": "C68",
   "status": "partial",
   "theorems": [
    "Verif.Su3.C68_half_partial",
    "Verif.Su3.C68_in_place",
    "Verif.Su3.C68_in_place_wrong"
   ],
   "note": "true when the destination is not the right operand; for h = u*h the first component is overwritten before it is used (exact formula of the error proved for all fields and schedules)"
  },
  {
   "property": "C69",
   "status": "partial",
   "theorems": [
    "Verif.Reduce.C69_norm2_partial",
    "Verif.Reduce.C69_inner_partial",
    "Verif.Reduce.C69_innerReal_partial",
    "Verif.Reduce.C69_all_partial",
    "Verif.Reduce.C69_arrays_partial",
    "Verif.Reduce.C69_nodes_partial",
    "Verif.Reduce.C69_shorter",
    "Verif.Reduce.C69_overflow"
   ],
   "note": "exact arithmetic; fewer than 89478486 sites per node (above, the number of words overflows int: proved) and second array not shorter than the first (else it is read out of bounds: proved)"
  },
  {
   "property": "C70",
   "status": "partial",
   "theorems": [
    "Verif.XmlNum.C70_round_trip",
    "Verif.XmlNum.C70_types",
    "Verif.XmlNum.C70_accepts_partial",
    "Verif.XmlNum.C70_rejects",
    "Verif.XmlNum.C70_dropped",
    "Verif.XmlNum.C70_blank_matters",
    "Verif.XmlNum.C70_list",
    "Verif.XmlNum.C70_list_dropped",
    "Verif.XmlNum.C70_negative"
   ],
   "note": "round trip holds for all arrays; the exact language accepted is proved; a last entry out of range or a lone sign at the very end is dropped without error, lists stop at the first bad entry without error, negative numbers wrap in unsigned arrays (all proved)"
  },
  {
   "property": "C71",
   "status": "partial",
   "theorems": [
    "Verif.XmlTree.C71_round_trip_partial",
    "Verif.XmlTree.C71_list",
    "Verif.XmlTree.C71_list_lost",
    "Verif.XmlTree.C71_list_bool",
    "Verif.XmlTree.C71_map"
   ],
   "note": "all nestings without a std::list read by the template (which always gives the empty list: proved); maps must be empty before (else old entries win: proved); keys of maps are integers; finding elements by tag is the model's reading of the XPath library, which is not in the repository"
  },
  {
   "property": "C72",
   "status": "partial",
   "theorems": [
    "Verif.XmlArray.C72_document_partial",
    "Verif.XmlArray.C72_empty",
    "Verif.XmlArray.C72_no_stray",
    "Verif.XmlArray.C72_program",
    "Verif.XmlArray.C72_size_zero",
    "Verif.XmlArray.C72_simple",
    "Verif.XmlArray.C72_push_nested",
    "Verif.XmlArray.C72_unfinished"
   ],
   "note": "for all call sequences in which an array whose tag was written gets an element and the size is not 0; an array without elements is left open, size 0 is not enforced, simple values are not counted (proved)"
  },
  {
   "property": "C73",
   "status": "partial",
   "theorems": [
    "Verif.XmlNodes.C73_agree_partial",
    "Verif.XmlNodes.C73_primary",
    "Verif.XmlNodes.C73_waits",
    "Verif.XmlNodes.C73_shifted",
    "Verif.XmlNodes.C73_defaults"
   ],
   "note": "for all programs whose queries are all found; when one is not found the primary node leaves before the broadcast, so the other nodes take the next message for the missing value or wait forever (proved for all documents and lists of defaults)"
  },
  {
   "property": "C74",
   "status": "partial",
   "theorems": [
    "Verif.IoNode.C74_node",
    "Verif.IoNode.C74_blocks",
    "Verif.IoNode.C74_count",
    "Verif.IoNode.C74_at_most",
    "Verif.IoNode.C74_asked_partial",
    "Verif.IoNode.C74_master",
    "Verif.IoNode.C74_fewer",
    "Verif.IoNode.C74_zero"
   ],
   "note": "assignment and blocks for all machines and grids of positive numbers; the number of I/O nodes is the one asked for if the grid divides the machine, otherwise it may be less (exact count proved); a zero in the grid divides by zero (proved)"
  },
  {
   "property": "C75",
   "status": "partial",
   "theorems": [
    "Verif.QioField.C75_field_partial",
    "Verif.QioField.C75_array_partial",
    "Verif.QioField.C75_same",
    "Verif.QioField.C75_read",
    "Verif.QioField.C75_read_array",
    "Verif.QioField.C75_refused",
    "Verif.QioField.C75_scalar",
    "Verif.QioField.C75_scalar_length",
    "Verif.QioField.C75_int_as_float",
    "Verif.QioField.C75_float_as_int",
    "Verif.QioField.C75_overrun",
    "Verif.QioField.C75_scalar_overrun",
    "Verif.QioField.C75_outside"
   ],
   "note": "for records and fields with the same number of words that are of the same kind or both floating-point, QIO taken by its interface; a record of another size is refused; integers and single-precision numbers are taken for each other, an array record overruns a single field of the same total size, and outside a hypercube floating-point fields are zeroed but integer fields kept (proved)"
  },
  {
   "property": "C76",
   "status": "partial",
   "theorems": [
    "Verif.CmdLine.C76_accepted_partial",
    "Verif.CmdLine.C76_names",
    "Verif.CmdLine.C76_missing",
    "Verif.CmdLine.C76_missing_last",
    "Verif.CmdLine.C76_not_int",
    "Verif.CmdLine.C76_no_error",
    "Verif.CmdLine.C76_unknown",
    "Verif.CmdLineLibs.C76_par_partial",
    "Verif.CmdLineLibs.C76_scalar_partial",
    "Verif.CmdLineLibs.C76_parvec_partial",
    "Verif.CmdLineLibs.C76_vec_partial",
    "Verif.CmdLineLibs.C76_help",
    "Verif.CmdLineLibs.C76_message_dead",
    "Verif.CmdLineLibs.C76_libs_missing",
    "Verif.CmdLineLibs.C76_pool_silent"
   ],
   "note": "the command lines read without undefined behaviour, and what they set, are characterised; missing and malformed values are undefined behaviour, the error message is unreachable, unknown options are ignored (proved)"
  },
  {
   "property": "C77",
   "status": "partial",
   "theorems": [
    "Verif.Hdf5.C77_map",
    "Verif.Hdf5.C77_read",
    "Verif.Hdf5.C77_read_array",
    "Verif.Hdf5.C77_read_typed",
    "Verif.Hdf5.C77_read_typed_array",
    "Verif.Hdf5.C77_write_partial",
    "Verif.Hdf5.C77_write_typed",
    "Verif.Hdf5.C77_roundtrip_partial",
    "Verif.Hdf5.C77_array_roundtrip_partial",
    "Verif.Hdf5.C77_typed_roundtrip",
    "Verif.Hdf5.C77_typed_array_roundtrip_partial",
    "Verif.Hdf5.C77_maintain",
    "Verif.Hdf5.C77_one_number_fails",
    "Verif.Hdf5.C77_single_matrix_fails",
    "Verif.Hdf5.C77_array_of_one_fails",
    "Verif.Hdf5.C77_small_sites_fail",
    "Verif.Hdf5.C77_array_small_fails",
    "Verif.Hdf5.C77_narrow_fails",
    "Verif.Hdf5.C77_double_fails",
    "Verif.Hdf5.C77_wide_fails",
    "Verif.Hdf5.C77_odd_write_fails",
    "Verif.Hdf5.C77_odd_read_fails",
    "Verif.Hdf5.C77_accepts",
    "Verif.Hdf5.C77_typed_accepts"
   ],
   "note": "round trips between all machines, orderings and byte orders, for sites of at least two numbers of type REAL, arrays of colour matrices of length at least two, and pieces below 2 GB or evenly halved; HDF5 taken by its interface. Fields of one number, single-precision colour matrices and arrays of one matrix are never readable, types with another number of words are accepted with wrong sites or overrun, odd extents above 2 GB lose rows (all proved)"
  },
  {
   "property": "C78",
   "status": "partial",
   "theorems": [
    "Verif.Hdf5.C78_read",
    "Verif.Hdf5.C78_read_prop",
    "Verif.Hdf5.C78_write",
    "Verif.Hdf5.C78_refused",
    "Verif.Hdf5.C78_roundtrip_fails",
    "Verif.Hdf5.C78_transposed",
    "Verif.Hdf5.C78_roundtrip_partial",
    "Verif.Hdf5.C78_ordinary"
   ],
   "note": "what is written, refused and read is proved for all machines; but the writer puts the last coordinate first and the reader expects the first: a configuration is refused or read transposed (both proved), the round trip only holds for fields symmetric under reversal of the coordinates"
  },
  {
   "property": "C79",
   "status": "partial",
   "theorems": [
    "Verif.Hdf5Path.C79_split",
    "Verif.Hdf5Path.C79_parent",
    "Verif.Hdf5Path.C79_pop",
    "Verif.Hdf5Path.C79_cd_partial",
    "Verif.Hdf5Path.C79_cd_stays",
    "Verif.Hdf5Path.C79_cd_hangs",
    "Verif.Hdf5Path.C79_push_partial",
    "Verif.Hdf5Path.C79_push_blocked",
    "Verif.Hdf5Path.C79_mkdir",
    "Verif.Hdf5Path.C79_exists_partial",
    "Verif.Hdf5Path.C79_exists_root_fails",
    "Verif.Hdf5Path.C79_push_pop",
    "Verif.Hdf5Path.C79_push_pop_back",
    "Verif.Hdf5Path.C79_push_pop_blocked"
   ],
   "note": "all trees and strings, HDF5 links as a tree without soft links. cd to the current group by another name never ends, objectExists of the root is undefined, push stops silently at a data set, pop takes back push only for one name (all proved)"
  },
  {
   "property": "C80",
   "status": "partial",
   "theorems": [
    "Verif.Hdf5Val.C80_write_partial",
    "Verif.Hdf5Val.C80_write_array",
    "Verif.Hdf5Val.C80_write_matrix",
    "Verif.Hdf5Val.C80_write_string_partial",
    "Verif.Hdf5Val.C80_refused",
    "Verif.Hdf5Val.C80_string_ignored",
    "Verif.Hdf5Val.C80_lost",
    "Verif.Hdf5Val.C80_read",
    "Verif.Hdf5Val.C80_read_complex",
    "Verif.Hdf5Val.C80_read_array",
    "Verif.Hdf5Val.C80_read_complex_array",
    "Verif.Hdf5Val.C80_read_matrix",
    "Verif.Hdf5Val.C80_read_string_partial",
    "Verif.Hdf5Val.C80_string",
    "Verif.Hdf5Val.C80_read_refused",
    "Verif.Hdf5Val.C80_overrun",
    "Verif.Hdf5Val.C80_empty",
    "Verif.Hdf5Val.C80_roundtrip",
    "Verif.Hdf5Val.C80_scalar_write_partial",
    "Verif.Hdf5Val.C80_scalar_size_fails",
    "Verif.Hdf5Val.C80_scalar_read",
    "Verif.Hdf5Val.C80_scalar_roundtrip",
    "Verif.Hdf5Val.C80_scalar_same",
    "Verif.Hdf5Val.C80_scalar_order_fails",
    "Verif.Hdf5Val.C80_scalar_double_fails",
    "Verif.Hdf5Val.C80_scalar_single_fails",
    "Verif.Hdf5Val.C80_colour_matrix_fails",
    "Verif.Hdf5Val.C80_scalars_roundtrip_partial",
    "Verif.Hdf5Val.C80_scalars_empty_fails",
    "Verif.Hdf5Val.C80_att_write",
    "Verif.Hdf5Val.C80_att_refused",
    "Verif.Hdf5Val.C80_att_read_partial",
    "Verif.Hdf5Val.C80_att_overrun"
   ],
   "note": "round trips of numbers, complex numbers, arrays, matrices, strings without zero bytes, scalars of words of type REAL and attributes, for all files, names and byte orders. Lost writes, ignored strings, overruns by arrays, scalars of other sizes or precisions, colour matrices without a reader and empty arrays of scalars are refuted (all proved). Committed types and allocation failures are not modelled"
  },
  {
   "property": "C81",
   "status": "partial",
   "theorems": [
    "Verif.Sse.C81_products_partial",
    "Verif.Sse.C81_copies",
    "Verif.Sse.C81_site_operators",
    "Verif.Sse.C81_index",
    "Verif.Sse.C81_in_place"
   ],
   "note": "true, for all matrices, subsets, thread counts and interleavings and both versions of the kernels, if the right operand is not the destination and an operand under adj is not either; for every other choice of fields it is refuted for each of the twelve statements and both versions (C81_in_place), over every nontrivial ring. Exact arithmetic; alignment of the fields is not modelled"
  },
  {
   "property": "C82",
   "status": "partial",
   "theorems": [
    "Verif.SseReduce.C82_norm2_partial",
    "Verif.SseReduce.C82_inner_partial",
    "Verif.SseReduce.C82_unthreaded_partial",
    "Verif.SseReduce.C82_norm2_array",
    "Verif.SseReduce.C82_arrays_partial",
    "Verif.SseReduce.C82_arrays_double_partial",
    "Verif.SseReduce.C82_all_partial",
    "Verif.SseReduce.C82_stale",
    "Verif.SseReduce.C82_uninitialised",
    "Verif.SseReduce.C82_example"
   ],
   "note": "true for all fields and subsets if an ordered subset has at least as many sites as there are threads and the int products stay below 2^31; refuted otherwise: cells of threads without sites keep the sums of an earlier call (C82_stale, C82_example) or were never written (C82_uninitialised); innerProduct of arrays reads past a shorter second one. Exact arithmetic, without the sum over nodes"
  },
  {
   "property": "C83",
   "status": "proved",
   "theorems": [
    "Verif.SseBlas.C83_statement",
    "Verif.SseBlas.C83_same_as_general",
    "Verif.SseBlas.C83_same_as_generic",
    "Verif.SseBlas.counterparts"
   ],
   "note": "exact arithmetic; products of sites and threads below 2^31; kernels and calls extracted from the sources by tools/gen_sse_blas.py. Not modelled: rounding, alignment, ordering of non-temporal stores, prefetches"
  },
  {
   "property": "C84",
   "status": "partial",
   "theorems": [
    "Verif.SseSingle.C84_products_partial",
    "Verif.SseSingle.C84_through_tmp",
    "Verif.SseSingle.C84_copies_partial",
    "Verif.SseSingle.C84_copies_iff",
    "Verif.SseSingle.C84_odd",
    "Verif.SseSingle.C84_red_black"
   ],
   "note": "copies: true unless the subset is a run that begins at an odd site, and then undefined (unaligned access), e.g. d[rb[1]] = l on a node with twice an odd number of sites. Products: the routines of libintrin are a parameter; with += and -= and for adj*adj the result is right for all operands if they are right for separate ones; for = it is not known what they do in place. Exact arithmetic"
  },
  {
   "property": "C85",
   "status": "proved",
   "theorems": [
    "Verif.PeekPoke.C85_peek_poke",
    "Verif.PeekPoke.C85_lexico",
    "Verif.PeekPoke.C85_cb2",
    "Verif.PeekPoke.C85_one_node",
    "Verif.PeekPoke.C85_extract",
    "Verif.PeekPoke.C85_copymask",
    "Verif.PeekPoke.C85_extract_short",
    "Verif.PeekPoke.C85_off_lattice",
    "Verif.PeekPoke.C85_off_lattice_par",
    "Verif.PeekPoke.C85_crossed"
   ],
   "note": "QMP is modelled as ordered channels and a broadcast from node 0 with any degree of waiting. Coordinates off the lattice are not noticed and give different sites in the two builds (C85_off_lattice, C85_off_lattice_par); nodes that ask for different sites can wait for ever (C85_crossed); an array sized by the subset is written past its end by QDP_extract (C85_extract_short)"
  },
  {
   "property": "C86",
   "status": "proved",
   "theorems": [
    "Verif.Spmd.C86_spmd",
    "Verif.Spmd.C86_reproducible",
    "Verif.Spmd.C86_lexico",
    "Verif.Spmd.C86_cb2",
    "Verif.Spmd.C86_two_machines",
    "Verif.Spmd.C86_lone_sum",
    "Verif.Spmd.C86_refused"
   ],
   "note": "maps must be permutations accepted by Map::make, which all shifts are (C86_refused: one that is not); all nodes must run the same program (C86_lone_sum); the loops of a node are run by one thread here (C47, C48, C50)"
  },
  {
   "property": "C87",
   "status": "proved",
   "theorems": [
    "Verif.LatticeIONet.C87_refines",
    "Verif.LatticeIONet.C87_write_partial",
    "Verif.LatticeIONet.C87_read",
    "Verif.LatticeIONet.C87_write_subset_partial",
    "Verif.LatticeIONet.C87_read_subset"
   ],
   "note": "the corollaries for writing need a strip of at least four bytes on machines that are not grids, as the clear-to-send message is taken from the data buffer (C27_short_rows)"
  },
  {
   "property": "C88",
   "status": "partial",
   "theorems": [
    "Verif.SubLat.C88_step_partial",
    "Verif.SubLat.C88_unset",
    "Verif.SubLat.C88_partial",
    "Verif.SubLat.C88_no_leak",
    "Verif.SubLat.C88_sum",
    "Verif.SubLat.C88_sum_view",
    "Verif.SubLat.C88_sum_view_wrong",
    "Verif.SubLat.C88_scalar_first",
    "Verif.SubLat.C88_scalar_wrong",
    "Verif.SubLat.C88_scalar_empty",
    "Verif.SubLat.C88_poke_own",
    "Verif.SubLat.C88_assign_other_sites",
    "Verif.SubLat.C88_assign_wrong",
    "Verif.SubLat.C88_assign_abort",
    "Verif.SubLat.C88_scalar_subset"
   ],
   "note": "partial: for a sublattice with memory of its own the assignment of a number or scalar changes only the first site and is out of bounds without sites; poked components go to the wrong memory; assignment between sublattices compares sizes only; the sum of a view is over the first sites of the node; x[s] = v for a scalar x reads an uninitialised member"
  },
  {
   "property": "C89",
   "status": "partial",
   "theorems": [
    "Verif.Reality.C89_floating",
    "Verif.Reality.C89_value_partial",
    "Verif.Reality.C89_promote",
    "Verif.Reality.C89_compound",
    "Verif.Reality.C89_div_int",
    "Verif.Reality.C89_div_int_complex",
    "Verif.Reality.C89_div_inconsistent",
    "Verif.Reality.C89_number_int",
    "Verif.Reality.C89_fn_int",
    "Verif.Reality.C89_false"
   ],
   "note": "partial: proved for floating-point fields and for integer fields where types do not matter; a complex field divided by an integer field is zero (the reciprocal is computed in the type of the divisor), a C++ number next to an integer field is cut to an integer, functions of integer fields are cut to integers"
  },
  {
   "property": "C90",
   "status": "proved",
   "theorems": [
    "Verif.Gauss.C90_deviate",
    "Verif.Gauss.C90_field",
    "Verif.Gauss.C90_layout_independent",
    "Verif.Gauss.C90_no_reuse",
    "Verif.Gauss.C90_box_muller",
    "Verif.Gauss.C90_bounded",
    "Verif.Gauss.C90_normal",
    "Verif.Gauss.C90_zero_seed"
   ],
   "note": "log, sqrt, sin, cos are those of real numbers; the deviates carry the rounding of the code; seed zero (accepted by setrn) is excluded, the logarithm is then infinite at every site (C90_zero_seed)"
  },
  {
   "property": "C91",
   "status": "partial",
   "theorems": [
    "Verif.Reunit.C91_special_unitary_partial",
    "Verif.Reunit.C91_det",
    "Verif.Reunit.C91_fixed",
    "Verif.Reunit.C91_phase",
    "Verif.Reunit.C91_unitary",
    "Verif.Reunit.C91_det_one_iff",
    "Verif.Reunit.C91_det_wrong",
    "Verif.Reunit.C91_no_pivot",
    "Verif.Reunit.C91_false",
    "Verif.Reunit.C91_flags"
   ],
   "note": "proved for Nc <= 3; false for Nc >= 4: the phase is taken from atan2(Im det, norm of the last column), line 384, so that the determinant stays what it is if it is real (C91_det_wrong), and the LU decomposition has no pivoting and divides by zero for matrices of SU(4) (C91_no_pivot). What holds for Nc >= 4: Q is unitary, sigmasq is the distance, and the exact condition under which det Q = 1 (C91_phase, C91_det_one_iff). Real numbers without rounding"
  },
  {
   "property": "C92",
   "status": "partial",
   "theorems": [
    "Verif.Gauge.C92_plaquette_partial",
    "Verif.Gauge.C92_gauge_invariant",
    "Verif.Gauge.C92_bounds",
    "Verif.Gauge.C92_flat_iff",
    "Verif.Gauge.C92_pure_gauge",
    "Verif.Gauge.C92_link",
    "Verif.Gauge.C92_overflow",
    "Verif.Gauge.C92_false"
   ],
   "note": "proved where Vol*Nd*(Nd-1)*Nc and 12*Vol fit an int and Nd >= 2; false beyond: the product is of ints and overflows, for three colours in four dimensions from a volume of 2^31/36 on, e.g. 96^3 x 192 (C92_overflow, C92_false); `link` is divided by 12*Vol whatever Nd and Nc (C92_link). Real numbers without rounding"
  },
  {
   "property": "C93",
   "status": "partial",
   "theorems": [
    "Verif.Gauge.C93_taproj_partial",
    "Verif.Gauge.C93_taproj_one",
    "Verif.Gauge.C93_expm12",
    "Verif.Gauge.C93_rgauge",
    "Verif.Gauge.C93_rgauge_more",
    "Verif.Gauge.C93_plaquette_unchanged"
   ],
   "note": "proved for Nc <= 3; with more colours where `reunit` succeeds, but for the determinant (C91 refutes it). The projection is not traceless for one colour (C93_taproj_one). `gaussian` is left out: the matrices it leaves are arbitrary. Real numbers without rounding"
  },
  {
   "property": "C94",
   "status": "partial",
   "theorems": [
    "Verif.Gauge.C94_polyakov_partial",
    "Verif.Gauge.C94_cyclic",
    "Verif.Gauge.C94_gauge_invariant",
    "Verif.Gauge.C94_bound",
    "Verif.Gauge.C94_unit",
    "Verif.Gauge.C94_centre",
    "Verif.Gauge.C94_overflow",
    "Verif.Gauge.C94_false"
   ],
   "note": "proved where Nc*Vol fits an int; beyond, `Nc*Layout::vol()` is a product of ints and overflows, e.g. three colours on 128^3 x 384 (C94_overflow, C94_false). Directions out of range are not modelled. Real numbers without rounding"
  },
  {
   "property": "C95",
   "status": "partial",
   "theorems": [
    "Verif.Dslash.C95_dslash",
    "Verif.Dslash.C95_dslash2_partial",
    "Verif.Dslash.C95_dslash2_other",
    "Verif.Dslash.C95_false",
    "Verif.Dslash.C95_checkerboard",
    "Verif.Dslash.C95_linear",
    "Verif.Dslash.C95_covariant",
    "Verif.Dslash.C95_gamma5",
    "Verif.Dslash.C95_adjoint",
    "Verif.Dslash.C95_free"
   ],
   "note": "proved for dslash on all lattices, for dslash2 with even extents and isign = +-1. With an odd extent dslash2 reads uninitialised sites of tmp, e.g. on 2 x 3 x 2 x 2 (C95_false); for isign other than +-1 it does nothing, where dslash takes the sign (C95_dslash2_other). Real numbers without rounding"
  },
  {
   "property": "C96",
   "status": "partial",
   "theorems": [
    "Verif.FloatText.C96_float_partial",
    "Verif.FloatText.C96_double_partial",
    "Verif.FloatText.C96_exact_partial",
    "Verif.FloatText.C96_literals_partial",
    "Verif.FloatText.C96_error_float",
    "Verif.FloatText.C96_error_double",
    "Verif.FloatText.C96_enough",
    "Verif.FloatText.C96_nine_seventeen",
    "Verif.FloatText.C96_false_float",
    "Verif.FloatText.C96_false_double",
    "Verif.FloatText.C96_text_double",
    "Verif.FloatText.C96_text_float_false",
    "Verif.FloatText.C96_rewrite_double",
    "Verif.FloatText.C96_nonfinite",
    "Verif.FloatText.C96_nonfinite_list",
    "Verif.FloatText.C96_largest",
    "Verif.FloatText.C96_largest_ex",
    "Verif.FloatText.C96_stops"
   ],
   "note": "false: seven and fifteen digits do not identify a number (C96_false_float, C96_false_double). Proved: same length; every number is the one of the format next to the decimal next to it, relative error at most 1e-6 and 1e-14; numbers with few digits, and doubles next to a 15-digit decimal, come back unchanged; nine and seventeen digits would do for all. The largest doubles are dropped silently at the end of an array (C96_largest); arrays with inf or nan are not readable (C96_nonfinite) and as a list are cut off silently (C96_nonfinite_list). The tag is not modelled; printf and strtod are taken as correctly rounded"
  },
  {
   "property": "C97",
   "status": "partial",
   "theorems": [
    "Verif.TextIO.C97_round_trip_partial",
    "Verif.TextIO.C97_negative_partial",
    "Verif.TextIO.C97_seed",
    "Verif.TextIO.C97_nodes",
    "Verif.TextIO.C97_after_failure",
    "Verif.TextIO.C97_written",
    "Verif.TextIO.C97_error",
    "Verif.TextIO.C97_false",
    "Verif.TextIO.C97_false_numbers",
    "Verif.TextIO.C97_digits_false",
    "Verif.TextIO.C97_joined",
    "Verif.TextIO.C97_cut",
    "Verif.TextIO.C97_empty",
    "Verif.TextIO.C97_initial",
    "Verif.TextIO.C97_initial_false",
    "Verif.TextIO.C97_reopen",
    "Verif.TextIO.C97_at_end",
    "Verif.TextIO.C97_twice",
    "Verif.TextIO.C97_file"
   ],
   "note": "false: complex numbers, vectors and matrices are written without white space between the numbers; all-ones objects of two or more numbers are never read back (C97_false). Proved: values with white space behind each of them come back on every node, floating-point numbers to six digits (error at most 1e-5, C97_error; not exactly, C97_digits_false); seeds come back exactly; objects whose numbers after the first are all negative come back; all nodes agree also after failures. Strings must not be empty or contain white space or zero bytes (C97_empty, C97_cut). TextBufferWriter::open(s) overwrites s (C97_initial); TextBufferReader::open after the end of a text leaves it failing (C97_reopen)"
  },
  {
   "property": "C98",
   "status": "proved",
   "theorems": [
    "Verif.Hadron.C98_mesons",
    "Verif.Hadron.C98_currents",
    "Verif.Hadron.C98_all_slices",
    "Verif.Hadron.C98_source_outside",
    "Verif.Hadron.C98_meson_gauge",
    "Verif.Hadron.C98_pion",
    "Verif.Hadron.C98_pion_largest",
    "Verif.Hadron.C98_pion_slices",
    "Verif.Hadron.C98_momenta",
    "Verif.Hadron.C98_comment",
    "Verif.Hadron.C98_current_gauge",
    "Verif.Hadron.C98_ward",
    "Verif.Hadron.C98_conserved",
    "Verif.Hadron.C98_charge",
    "Verif.Hadron.C98_charge_written"
   ],
   "note": "exact arithmetic, up to four directions; sumMulti as one sum for each slice (C50 is about its single pass). A source beyond the end of the lattice gives a negative index (C98_source_outside)"
  },
  {
   "property": "C99",
   "status": "proved",
   "theorems": [
    "Verif.Baryon.C99_baryons",
    "Verif.Baryon.C99_lambda",
    "Verif.Baryon.C99_gauge",
    "Verif.Baryon.C99_gauge_su3",
    "Verif.Baryon.C99_gauge_u3",
    "Verif.Baryon.C99_boundary",
    "Verif.Baryon.C99_beyond",
    "Verif.Baryon.C99_forward_only",
    "Verif.Baryon.C99_nonrelativistic",
    "Verif.Baryon.C99_projector",
    "Verif.Baryon.C99_spin",
    "Verif.Baryon.C99_charge_conjugation",
    "Verif.Baryon.C99_matrices",
    "Verif.Baryon.C99_values",
    "Verif.Baryon.C99_not_difference"
   ],
   "note": "exact arithmetic; sumMulti as one sum for each field and slice. The comment's time-reversed baryons are not computed (C99_forward_only); two comments have a wrong sign (C99_matrices)"
  },
  {
   "property": "C100",
   "status": "partial",
   "theorems": [
    "Verif.Vec.C100_slots",
    "Verif.Vec.C100_peek",
    "Verif.Vec.C100_poke",
    "Verif.Vec.C100_extract",
    "Verif.Vec.C100_insert",
    "Verif.Vec.C100_coordinate",
    "Verif.Vec.C100_map",
    "Verif.Vec.C100_shift",
    "Verif.Vec.C100_expr",
    "Verif.Vec.C100_zero",
    "Verif.Vec.C100_copymask",
    "Verif.Vec.C100_write",
    "Verif.Vec.C100_read",
    "Verif.Vec.C100_same_file",
    "Verif.Vec.C100_site",
    "Verif.Vec.C100_sum_covers",
    "Verif.Vec.C100_sum_partial",
    "Verif.Vec.C100_sum_right_iff",
    "Verif.Vec.C100_sum_all",
    "Verif.Vec.C100_rb_iff",
    "Verif.Vec.C100_array",
    "Verif.Vec.C100_not_partition",
    "Verif.Vec.C100_gather2_wrong",
    "Verif.Vec.C100_statements_stop",
    "Verif.Vec.C100_create_never_returns",
    "Verif.Vec.C100_create_refuted"
   ],
   "note": "False in part: the sum over a contiguous subset adds whole vectors, so it is right for every field iff the subset starts and ends with whole vectors (C100_sum_right_iff; checkerboards: iff 2*INNER_LEN divides the volume, C100_rb_iff); gather_sites for two sites takes both from the first vector (C100_gather2_wrong; not reached, Map is an #error there); every lattice assignment stops the program, and with it Layout::create (C100_create_never_returns). What holds is proved for fields that exist"
  },
  {
   "property": "C101",
   "status": "partial",
   "theorems": [
    "Verif.ArchiveFile.C101_mesplq",
    "Verif.ArchiveFile.C101_round_trip",
    "Verif.ArchiveFile.C101_checked",
    "Verif.ArchiveFile.C101_one_word",
    "Verif.ArchiveFile.C101_nan",
    "Verif.ArchiveFile.C101_wrong_accepted",
    "Verif.ArchiveFile.C101_three_rows",
    "Verif.ArchiveFile.C101_overflow"
   ],
   "note": "False in part: with mat_size = 18 the header says two rows and the file of the cold start is refused everywhere (C101_three_rows); unitary links of determinant -1 can be accepted and come back as others, every one (C101_wrong_accepted); a plaquette or link trace that is not a number passes (C101_nan); a product of 36 and the number of sites overflows int from 59652324 sites on, so that e.g. 96^3 x 192 cannot be saved or loaded (C101_overflow). The round trip holds for two rows and SU(3); measurements within 1.5e-6, numbers of links within 2^-25"
  },
  {
   "property": "C102",
   "status": "partial",
   "theorems": [
    "Verif.ArrSums.C102_single",
    "Verif.ArrSums.C102_node_partial",
    "Verif.ArrSums.C102_whole_partial",
    "Verif.ArrSums.C102_short",
    "Verif.ArrSums.C102_lost",
    "Verif.ArrSums.C102_sumMulti",
    "Verif.ArrSums.C102_sumMulti_whole",
    "Verif.ArrSums.C102_laws"
   ],
   "note": "False in part: the sizes are not compared, a second array that is shorter is read behind its end (C102_short); on many nodes a thread whose number reaches the number of sites throws its share away, and OpenMP may give it one (C102_lost). For the many-node library the sum is proved for schedules that give such threads nothing"
  },
  {
   "property": "C103",
   "status": "partial",
   "theorems": [
    "Verif.XmlField.C103_document",
    "Verif.XmlField.C103_one_node",
    "Verif.XmlField.C103_vector",
    "Verif.XmlField.C103_well_formed",
    "Verif.XmlField.C103_faithful",
    "Verif.XmlField.C103_sites",
    "Verif.XmlField.C103_coord",
    "Verif.XmlField.C103_index",
    "Verif.XmlField.C103_round_trip",
    "Verif.XmlField.C103_round_trip_words",
    "Verif.XmlField.C103_complex_parts",
    "Verif.XmlField.C103_seed_count",
    "Verif.XmlField.C103_char",
    "Verif.XmlField.C103_char_number"
   ],
   "note": "False in part: a seed with fewer than four elements is read behind the end of the array, with more the rest is ignored (C103_seed_count); `xml << c` of a character writes its number, and of all characters only '5' comes back (C103_char_number)"
  },
  {
   "property": "C104",
   "status": "partial",
   "theorems": [
    "Verif.VecNodes.C104_program",
    "Verif.VecNodes.C104_right_partial",
    "Verif.VecNodes.C104_sum_iff",
    "Verif.VecNodes.C104_statements_nothing",
    "Verif.VecNodes.C104_statement_refuted",
    "Verif.VecNodes.C104_rng_not_set",
    "Verif.VecNodes.C104_shift_legal",
    "Verif.VecNodes.C104_shift"
   ],
   "note": "False: every assignment (`evaluate`) only prints that it is not implemented and leaves its destination, so that a program gives what it would give with its statements left out (C104_program, C104_statement_refuted), and the multipliers of the random number generator are never set (C104_rng_not_set); sums over subsets that lie in one stretch ending inside a vector take in other sites (C104_sum_iff). C104_right_partial: programs without statements, whose sums are over whole vectors, are right; missing is everything with a statement"
  },
  {
   "property": "C105",
   "status": "partial",
   "theorems": [
    "Verif.VecNodes.C105_write",
    "Verif.VecNodes.C105_read",
    "Verif.VecNodes.C105_write_site",
    "Verif.VecNodes.C105_read_site",
    "Verif.VecNodes.C105_xml",
    "Verif.VecNodes.C105_between_machines",
    "Verif.VecArchive.C105_checksum_one",
    "Verif.VecArchive.C105_archive_one",
    "Verif.VecArchive.C105_read_one_partial",
    "Verif.VecArchive.C105_double_one",
    "Verif.VecArchive.C105_checksum_many",
    "Verif.VecArchive.C105_archive_many",
    "Verif.VecArchive.C105_link_refuted",
    "Verif.VecArchive.C105_read_many_refuted"
   ],
   "note": "False: readArchiv for many nodes adds `su3+k` with `su3` an array of arrays, so that it leaves the array at the second row of the first link, for every file (C105_link_refuted), and no node ever gets through (C105_read_many_refuted). All other parts are proved"
  },
  {
   "property": "C106",
   "status": "partial",
   "theorems": [
    "Verif.LayoutCreate.C106_scalar_lexico",
    "Verif.LayoutCreate.C106_scalar_cb2",
    "Verif.LayoutCreate.C106_scalar_cb2_which",
    "Verif.LayoutCreate.C106_scalar_cb3d",
    "Verif.LayoutCreate.C106_scalar_cb32",
    "Verif.LayoutCreate.C106_scalar_cb32_which",
    "Verif.LayoutCreate.C106_par_partial",
    "Verif.LayoutCreate.C106_par_accepts",
    "Verif.LayoutCreate.C106_par_exact",
    "Verif.LayoutCreate.C106_par_checked",
    "Verif.LayoutCreate.C106_vec",
    "Verif.LayoutCreate.C106_large_refuted",
    "Verif.LayoutCreate.C106_geom_refuted",
    "Verif.LayoutCreate.C106_odd_block_refuted",
    "Verif.LayoutCreate.C106_negative_refuted"
   ],
   "note": "Proved on one node for extents that are not negative and a volume below 2^31, on many nodes if QMP divides the extents it is given, or with the debugging test of the sites, and in the vector library. False on many nodes for a machine shape given by -geom (C106_par_exact says exactly when), for 2^31 sites or more, and for two negative extents"
  },
  {
   "property": "C107",
   "status": "partial",
   "theorems": [
    "Verif.LifeCycle.C107_par_exact",
    "Verif.LifeCycle.C107_scalar_exact",
    "Verif.LifeCycle.C107_parvec_exact",
    "Verif.LifeCycle.C107_vec_exact",
    "Verif.LifeCycle.C107_proper_partial",
    "Verif.LifeCycle.C107_again_refuted",
    "Verif.LifeCycle.C107_early_refuted",
    "Verif.LifeCycle.C107_late_refuted"
   ],
   "note": "What every call does after every sequence is characterised for all four libraries; proper sequences run unless they profile new statements in a second session. False: output or QDP_finalize before QDP_initialize is undefined on many nodes, any error after QDP_finalize frees memory twice on one node, and a second session with profiling is stopped"
  },
  {
   "property": "C108",
   "status": "partial",
   "theorems": [
    "Verif.MultiArith.C108_arrays",
    "Verif.MultiArith.C108_right",
    "Verif.MultiArith.C108_divide",
    "Verif.MultiArith.C108_functions",
    "Verif.MultiArith.C108_compound",
    "Verif.MultiArith.C108_concat",
    "Verif.MultiArith.C108_left_partial",
    "Verif.MultiArith.C108_left_exact",
    "Verif.MultiArith.C108_norm2_partial",
    "Verif.MultiArith.C108_left_refuted",
    "Verif.MultiArith.C108_norm2_refuted"
   ],
   "note": "Exact for array with array, array with scalar on the right, scalar divided by array, functions, compound assignments, concat. False: s*a computes a[i]*s (wrong for matrices), s+a appends for strings; norm2 of an empty array is undefined and of complex numbers is not a norm. scalar - array cannot be instantiated (no unary minus), concat only for int"
  },
  {
   "property": "C109",
   "status": "partial",
   "theorems": [
    "Verif.RecordInfo.C109_exact",
    "Verif.RecordInfo.C109_near_partial",
    "Verif.RecordInfo.C109_fermion",
    "Verif.RecordInfo.C109_refuted"
   ],
   "note": "Characterised for every type and every order; right for fermions and propagators in every order. False for colour matrices, spin matrices, complex and real fields: some orders state 0"
  },
  {
   "property": "C110",
   "status": "partial",
   "theorems": [
    "Verif.StdStream.C110_streams_partial",
    "Verif.StdStream.C110_precision",
    "Verif.StdStream.C110_long_refuted"
   ],
   "note": "Proved for all programs and executions whose strings are shorter than 2^31 bytes; longer strings stop the program (length sent as int)"
  },
  {
   "property": "C111",
   "status": "partial",
   "theorems": [
    "Verif.IntSum.C111_sound",
    "Verif.IntSum.C111_sum_partial",
    "Verif.IntSum.C111_serial_exact",
    "Verif.IntSum.C111_order_refuted",
    "Verif.IntSum.C111_large_refuted"
   ],
   "note": "A result that exists is exact; results exist on every machine when the absolute values add up to less than 2^31, on one thread exactly when all partial sums fit. False otherwise: the accumulator is an int, so whether a sum of value 0 is defined depends on the machine; the sum of 128 over 64^4 sites has no value"
  },
  {
   "property": "C112",
   "status": "partial",
   "theorems": [
    "Verif.FloatSum.C112_error",
    "Verif.FloatSum.C112_depth",
    "Verif.FloatSum.C112_two_machines",
    "Verif.FloatSum.C112_finite",
    "Verif.FloatSum.C112_exact",
    "Verif.FloatSum.C112_inner_error",
    "Verif.FloatSum.C112_norm2_nonneg",
    "Verif.FloatSum.C112_norm2_error",
    "Verif.FloatSum.C112_order_refuted",
    "Verif.FloatSum.C112_finite_refuted",
    "Verif.FloatSum.C112_range_refuted",
    "Verif.FloatSum.C112_precision_refuted"
   ],
   "note": "Error bounds for every order of additions, with IEEE rounding including subnormal numbers; exactness for multiples of a power of two. False: independence of the machine (0 and 1 for the same field; finite and not finite); norm2 and innerProduct of single-precision fields multiply in single precision (double(s1*s1)), so values below 2^-75 have norm zero, values of 2^65 no finite norm, and the result has single precision only. Not modelled: spin and colour nested vectors (one level of vector is), the kernels of C69, extended precision and fused operations"
  },
  {
   "property": "C113",
   "status": "partial",
   "theorems": [
    "Verif.Profile.C113_report",
    "Verif.Profile.C113_home",
    "Verif.Profile.C113_runs",
    "Verif.Profile.C113_level",
    "Verif.Profile.C113_home_partial",
    "Verif.Profile.C113_level_refuted",
    "Verif.Profile.C113_home_refuted",
    "Verif.Profile.C113_late_refuted",
    "Verif.Profile.C113_types_refuted",
    "Verif.Profile.C113_after_print_refuted",
    "Verif.Profile.C113_time_refuted"
   ],
   "note": "For every history, exactly what is printed (the linked lists through static variables equal a specification by first executions), that the loop ends, and exactly when the program aborts. START_CODE/END_CODE restore the level. False: a statement executed after a call is shown under the callee; a statement first executed at level 0 is never shown; statements of the same types are one; QDP_PUSH_PROFILE(l) leaves l to the caller; a new statement after printProfile aborts; times from 2^31 microseconds on are negative. Not modelled: the text of expressions, the printing of single statements at level 2, overflow of the int count"
  },
  {
   "property": "C114",
   "status": "partial",
   "theorems": [
    "Verif.Database.C114_agree_partial",
    "Verif.Database.C114_read_refuted",
    "Verif.Database.C114_by_value_refuted"
   ],
   "note": "Every execution of every program that only writes and asks ends on all nodes with the results of one process; a failed call aborts all nodes. False: get, getBinary, keys, keysAndData abort the other nodes (notImplemented); binaryKeysAndData takes its vectors by value and returns nothing even on one node. FILEDB itself is not in the repository and is a parameter. Not modelled: the destructor (a call of close by the program)"
  },
  {
   "property": "C115",
   "status": "partial",
   "theorems": [
    "Verif.Files.C115_fail",
    "Verif.Files.C115_write_partial",
    "Verif.Files.C115_reopen_refuted",
    "Verif.Files.C115_xml_reopen",
    "Verif.Files.C115_read",
    "Verif.Files.C115_read_refuted",
    "Verif.Files.C115_qio_partial",
    "Verif.Files.C115_qio_refuted"
   ],
   "note": "After every history, also wrong ones: if fail() is false the file opened last holds everything written since, what was read is its beginning, and the checksum agrees. False: opening an object that is open reports success and loses what is written, or leaves the variables unread, with a checksum as if all were well; a QIO object opened again leaks the first handle. XMLFileWriter aborts instead. Not modelled: stream buffers, full disks, seek (C19), several objects on one file"
  },
  {
   "property": "C116",
   "status": "partial",
   "theorems": [
    "Verif.Hdf5Open.C116_open_partial",
    "Verif.Hdf5Open.C116_error",
    "Verif.Hdf5Open.C116_keep",
    "Verif.Hdf5Open.C116_remove_refuted"
   ],
   "note": "Proved for a library that makes the file when all nodes are in the collective call: every schedule ends in the specified state. Every node removes a file that is not an HDF5 file: with a library in which node 0 makes the file at once, a slow node removes the new file and all nodes write to a file without a name (C116_remove_refuted). The HDF5 library is a model"
  },
  {
   "property": "C117",
   "status": "partial",
   "theorems": [
    "Verif.SetObjects.C117_intact_partial",
    "Verif.SetObjects.C117_kept",
    "Verif.SetObjects.C117_copy_refuted",
    "Verif.SetObjects.C117_assign_refuted"
   ],
   "note": "After every history a subset shows what it was meant to show as long as the set that was made to produce it has not been changed since. False beyond: the subsets of a copy point to the tables of the original and are undefined when that is destroyed or made again; a subset taken before its set is assigned to shows the old bounds with the new table. Simplified: freed memory is never used again by another array; default-constructed subsets are not read"
  },
  {
   "property": "C118",
   "status": "partial",
   "theorems": [
    "Verif.DefaultSets.C118_make",
    "Verif.DefaultSets.C118_few_dimensions",
    "Verif.DefaultSets.C118_mcb_same",
    "Verif.DefaultSets.C118_rb_neighbour",
    "Verif.DefaultSets.C118_rb_odd_refuted",
    "Verif.DefaultSets.C118_rb3_neighbour",
    "Verif.DefaultSets.C118_mcb_neighbours",
    "Verif.DefaultSets.C118_mcb_two_refuted",
    "Verif.DefaultSets.C118_rb3_cb3d",
    "Verif.DefaultSets.C118_mcb_cb32"
   ],
   "note": "Membership proved on every good geometry of 3 to 29 dimensions; with fewer initialisation aborts. Neighbours differ in rb along even extents and in mcb within two steps on extents that are multiples of 4, or 2; false along an odd extent (rb) and on every extent that leaves 2 modulo 4 except 2 (mcb), although the 32-colour layout admits those. rb3 is two ordered halves on the 3D layout of four dimensions, mcb ordered ranges on the 32-colour layout of one process"
  },
  {
   "property": "C119",
   "status": "partial",
   "theorems": [
    "Verif.Buffers.C119_writer_partial",
    "Verif.Buffers.C119_writer_exact",
    "Verif.Buffers.C119_checksum",
    "Verif.Buffers.C119_clear_refuted",
    "Verif.Buffers.C119_string_refuted",
    "Verif.Buffers.C119_reader_partial",
    "Verif.Buffers.C119_reader_checksum",
    "Verif.Buffers.C119_round_trip",
    "Verif.Buffers.C119_stuck_refuted",
    "Verif.Buffers.C119_clear_open"
   ],
   "note": "Contents and checksum given exactly for every history. The claim holds for writers made without a string and only written to, for readers whose reads stay within the string, and for every round trip. clear never empties a writer; a writer opened with a string writes over it, its checksum undefined when constructed from it; after a read beyond the end open, seek and rewind leave a reader stuck until clear. The primary node only; the string streams are those of the C++11 standard"
  },
  {
   "property": "C120",
   "status": "partial",
   "theorems": [
    "Verif.SseSpin.C120_project",
    "Verif.SseSpin.C120_recon",
    "Verif.SseSpin.C120_add_recon",
    "Verif.SseSpin.C120_matrix",
    "Verif.SseSpin.C120_one_thread",
    "Verif.SseSpin.C120_empty_refuted",
    "Verif.SseSpin.C120_threads_refuted"
   ],
   "note": "Proved for every direction and any positive number of sites below 2^32, arrays aligned and not overlapping, exact arithmetic. For n_vec = 0 the number of rounds n_vec-1 wraps around and the loop runs off the array. The function given to the threads ignores the beginning of its share: with at least 2 threads and 3 sites the last site is never assigned. The lines including these headers are commented out in every architecture, so only code including them directly is affected. Transcribed by tools/gen_sse_spin.py; prefetches left out"
  },
  {
   "property": "C121",
   "status": "partial",
   "theorems": [
    "Verif.VecSse.C121_matrix",
    "Verif.VecSse.C121_evaluate_partial",
    "Verif.VecSse.C121_scale",
    "Verif.VecSse.C121_complex",
    "Verif.VecSse.C121_in_place_refuted",
    "Verif.VecSse.C121_inside_vector_refuted",
    "Verif.VecSse.C121_table_refuted",
    "Verif.VecSse.C121_table_vectors"
   ],
   "note": "Proved: operator* for all matrices; evaluate for contiguous subsets of whole vectors when the destination is not the left operand (it may be the right one). Refuted: a = a*b (column 0 is stored before the left operand is read again), subsets beginning or ending inside a vector (whole vectors are assigned), subsets with a table (site numbers are used as vector numbers; that branch also uses an undeclared variable, so the file does not compile as it stands). Exact arithmetic; registers are assumed to survive between the asm statements, none of which declares what it sets"
  },
  {
   "property": "C122",
   "status": "proved",
   "theorems": [
    "Verif.FusedSpin.C122_project",
    "Verif.FusedSpin.C122_reconstruct",
    "Verif.FusedSpin.C122_object",
    "Verif.FusedSpin.C122_hop"
   ],
   "note": "Exact arithmetic. The headers are installed, but the line that includes them is commented out (include/qdp_scalarsite_generic.h:16), so a program gets them only by including them itself. The choice of overloads by the compiler is taken as written in the signatures. The SSE counterparts call products of a library that is not in the repository and are not modelled"
  },
  {
   "property": "C123",
   "status": "proved",
   "theorems": [
    "Verif.SseG5.C123_kernel",
    "Verif.SseG5.C123_statement",
    "Verif.SseG5.C123_same_as_general",
    "Verif.SseG5.C123_same_as_generic"
   ],
   "note": "Exact arithmetic, alignment not modelled. The header with the specialisations is installed but included nowhere, and does not compile: lines 940 and 985 use an undeclared name in the initialiser of an unused variable; the specialisations are modelled without these two lines"
  },
  {
   "property": "C124",
   "status": "partial",
   "theorems": [
    "Verif.SseSite.C124_specs",
    "Verif.SseSite.C124_inside",
    "Verif.SseSite.C124_half_partial",
    "Verif.SseSite.C124_generic"
   ],
   "note": "The routines of libintrin are a parameter of the model (C124_generic: the conditions on them can be met). Missing: nothing is known about intrin_sse_mult_su3_mat_hwvec where d is r. Exact arithmetic; alignment and the selection of a specialisation by the compiler are not modelled"
  },
  {
   "property": "C125",
   "status": "partial",
   "theorems": [
    "Verif.QioBuffer.C125_record_partial",
    "Verif.QioBuffer.C125_round_trip_partial",
    "Verif.QioBuffer.C125_str_partial",
    "Verif.QioBuffer.C125_arrays_partial",
    "Verif.QioBuffer.C125_other_records",
    "Verif.QioBuffer.C125_as_array",
    "Verif.QioBuffer.C125_reused_refuted",
    "Verif.QioBuffer.C125_checksum_refuted"
   ],
   "note": "Below 2^31 bytes the bytes come back for new readers, on every machine. A reader that failed before stays failed and a used reader keeps its checksum when the next record is read (proved for all records). A record of single bytes of any kind is accepted, as is an empty one"
  },
  {
   "property": "C126",
   "status": "partial",
   "theorems": [
    "Verif.OneBased.C126_elements",
    "Verif.OneBased.C126_read",
    "Verif.OneBased.C126_ref",
    "Verif.OneBased.C126_rows",
    "Verif.OneBased.C126_bounds",
    "Verif.OneBased.C126_size",
    "Verif.OneBased.C126_arithmetic",
    "Verif.OneBased.C126_resize",
    "Verif.OneBased.C126_zero_refuted",
    "Verif.OneBased.C126_size_refuted"
   ],
   "note": "Elements, arithmetic and the bounds of rank 1 hold for all arrays. From rank 2 on index 0 is the last element of the row before, size() is the range of the last index and not of the first, and resizing keeps nothing"
  },
  {
   "property": "C127",
   "status": "partial",
   "theorems": [
    "Verif.Component.C127_peek",
    "Verif.Component.C127_poke",
    "Verif.Component.C127_peek_poke",
    "Verif.Component.C127_poke_peek",
    "Verif.Component.C127_others",
    "Verif.Component.C127_all",
    "Verif.Component.C127_commute",
    "Verif.Component.C127_field",
    "Verif.Component.C127_row",
    "Verif.Component.C127_column_refuted"
   ],
   "note": "Proved for all types, sizes and values with indices in range. Nothing is refused: beyond the range of a vector the access is undefined, beyond the columns of a matrix it is the first column of the next row (proved for all matrices). Pokes into sublattices are in C88"
  },
  {
   "property": "C128",
   "status": "partial",
   "theorems": [
    "Verif.Where.C128_arith",
    "Verif.Where.C128_compare",
    "Verif.Where.C128_value",
    "Verif.Where.C128_defined",
    "Verif.Where.C128_assign",
    "Verif.Where.C128_guard_refuted",
    "Verif.Where.C128_number_refuted",
    "Verif.Where.C128_cut_refuted",
    "Verif.Where.C128_where",
    "Verif.Where.C128_copymask"
   ],
   "note": "Proved for expressions with a value: values agree with C++ if C++ numbers compared are ints and those in where are 0 or 1. Refuted: a guard does not guard (all parts are evaluated, and an expression has a value exactly if all parts have), a number in where becomes a bool, a number compared with an integer field is cut. Fields of floating point words in the expressions are not modelled; where of a real with a complex object does not compile"
  },
  {
   "property": "C129",
   "status": "partial",
   "theorems": [
    "Verif.Singleton.C129_one",
    "Verif.Singleton.C129_exit",
    "Verif.Singleton.C129_outlives",
    "Verif.Singleton.C129_allocator",
    "Verif.Singleton.C129_longevity_refuted",
    "Verif.Singleton.C129_memory_refuted",
    "Verif.Singleton.C129_dead_refuted",
    "Verif.Singleton.C129_phoenix_refuted"
   ],
   "note": "Proved for the policies default, phoenix and NoDestroy with constructors that do not depend on themselves, and for the end of the program with destructors that use only what their constructors used; for NoDestroy alone with any destructors. Refuted: SingletonWithLongevity overruns its array, a failed creation is not noticed, a destructor that uses another singleton can meet a dead reference, a revived phoenix is never destroyed. Threads (SingleThreaded is the only model) and exceptions of constructors are not modelled"
  },
  {
   "property": "C130",
   "status": "partial",
   "theorems": [
    "Verif.Bits.C130_bits",
    "Verif.Bits.C130_shift",
    "Verif.Bits.C130_value",
    "Verif.Bits.C130_logic",
    "Verif.Bits.C130_compound",
    "Verif.Bits.C130_assign",
    "Verif.Bits.C130_undefined",
    "Verif.Bits.C130_bool_refuted",
    "Verif.Bits.C130_shiftbool_refuted",
    "Verif.Bits.C130_number_refuted"
   ],
   "note": "Proved for all words and all expressions without arithmetic of two booleans, shifts of booleans, and numbers other than 0 and 1 next to booleans; refuted for these. ~ does not compile (no overload for the words) and is not modelled; a left shift that loses bits is taken as gcc defines it"
  },
  {
   "property": "C131",
   "status": "partial",
   "theorems": [
    "Verif.Bagel.C131_assign",
    "Verif.Bagel.C131_staggered_refuted",
    "Verif.Bagel.C131_any_spin_refuted"
   ],
   "note": "Proved for Dirac fermions (four spin components), over a field and hence up to rounding. The routines are not in the repository: what they write is assumed (Rout.app), as their names and the comments at the calls say. Refuted for other numbers of spin components, for which the count 4 per site is wrong. The reductions of the same header are in C132; the matrices (qdp_scalarsite_bagel_qdp_linalg.h) in C133"
  },
  {
   "property": "C132",
   "status": "partial",
   "theorems": [
    "Verif.BagelReduce.C132_norm2",
    "Verif.BagelReduce.C132_inner",
    "Verif.BagelReduce.C132_inner_real",
    "Verif.BagelReduce.C132_arrays",
    "Verif.BagelReduce.C132_kinds",
    "Verif.BagelReduce.C132_lengths_refuted",
    "Verif.BagelReduce.C132_staggered_refuted"
   ],
   "note": "Proved for Dirac fermions, over a field and hence up to rounding and the order of the sum. The routines are not in the repository: what they return is assumed (red, nrm, cdot, cdotr); the sum over the nodes is taken as exact. Refuted for arrays of different lengths and for other numbers of spin components"
  },
  {
   "property": "C133",
   "status": "partial",
   "theorems": [
    "Verif.BagelMat.C133_assign_partial",
    "Verif.BagelMat.C133_alias_open"
   ],
   "note": "Proved over a field with conjugation, hence up to rounding. The routines are not in the repository: what they write is assumed (Lib.Ok, rows), for products only if the destination is not an operand. Missing: d = d * r and the like; from the assumption it cannot be shown (C133_alias_open)"
  }
 ]
}