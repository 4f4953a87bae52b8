{"id": "C01", "title": "Site index and coordinates are mutually inverse (one node)", "statement": "On a single-node build, for each of the four site orderings (lexicographic, two-colour checkerboard, 3D checkerboard, 32-colour), converting a site index 0..vol-1 to coordinates and back gives the same index, converting any in-range coordinate to an index and back gives the same coordinate, and indices/coordinates stay in range; hence every lattice site is stored exactly once.", "quantifier": "all numbers of dimensions and all lattice extents meeting the ordering's evenness condition, all sites", "why_tests_cant": "the extents are unbounded; tests can only try a few lattice shapes, and the start-up sanity check covers only the lattice of that run", "anchors": ["lib/qdp_scalar_layout.cc: Layout::siteCoords, Layout::linearSiteIndex", "lib/qdp_layout.cc: crtesn, local_site"]}
{"id": "C02", "title": "Distributed layout places every site on exactly one node and slot", "statement": "On a multi-node build, (node number, local index) <-> global coordinate is a bijection: every coordinate is owned by exactly one node, siteCoords(node, index) lies on that node, and linearSiteIndex recovers the index, for lexicographic, checkerboard and 3D checkerboard orderings.", "quantifier": "all lattice extents, all machine grids that divide them (with the ordering's minimum sub-grid), all nodes and sites", "why_tests_cant": "number of machine geometries times lattice sizes is unbounded and the check in create() is compiled only with debugging on", "anchors": ["lib/qdp_parscalar_layout.cc: Layout::create, siteCoords, linearSiteIndex, nodeNumber", "lib/qdp_layout.cc: Layout::nodeCoord, localLexiCoordFromLinear"]}
{"id": "C03", "title": "Checkerboarded storage keeps each colour contiguous", "statement": "With the two-colour ordering, site index i is an even site (coordinate sum even) iff i is in the first half; so the even/odd subsets are each one contiguous index range of exactly vol/2 sites. The 3D ordering does the same for the spatial coordinate sum, and on multi-node builds the same holds per node with parity of global coordinates.", "quantifier": "all lattice extents with even first extent; all sites; all nodes", "why_tests_cant": "kernels rely on contiguity for every lattice size; tests run one or two sizes", "anchors": ["lib/qdp_scalar_layout.cc: CB2 siteCoords/linearSiteIndex", "lib/qdp_parscalar_layout.cc: CB2, CB3D", "lib/qdp_subset.cc: SetRBFunc, SetRB3Func"]}
{"id": "C04", "title": "A Set partitions the lattice", "statement": "After Set::make(func) with every colour in 0..numSubsets-1, the site tables of the subsets are pairwise disjoint, each lists precisely the sites with that colour in strictly increasing index order, together they cover all sites on the node, latticeColoring agrees with func, and an out-of-range colour aborts.", "quantifier": "all colour functions, all subset counts, all lattice sizes", "why_tests_cant": "the colour function is arbitrary user code", "anchors": ["lib/qdp_scalarsite_specific.cc: Set::make", "lib/qdp_scalarvecsite_specific.cc: Set::make", "include/qdp_subset.h: Subset, Set"]}
{"id": "C05", "title": "A subset claims an ordered range only when it is one", "statement": "If a subset reports hasOrderedRep(), its sites are exactly the consecutive indices start()..end(); conversely every non-empty contiguous subset reports an ordered representation, and an empty subset never does.", "quantifier": "all colour functions and lattice sizes", "why_tests_cant": "optimised kernels skip the site table when the flag is set, so one wrong flag for one shape corrupts memory silently", "anchors": ["lib/qdp_scalarsite_specific.cc: Set::make (ordRep/start/end)", "include/qdp_subset.h: Subset::start,end,hasOrderedRep"]}
{"id": "C06", "title": "Nearest-neighbour shift swaps checkerboards", "statement": "When every lattice extent is even, the forward and backward neighbour of an even site is odd and conversely; when some extent is odd this fails at the wrap-around.", "quantifier": "all lattice extents, all sites, all directions", "why_tests_cant": "only the wrap-around sites can fail and only for odd extents", "anchors": ["lib/qdp_map.cc: NearestNeighborMapFunc::operator()", "lib/qdp_subset.cc: SetRBFunc"]}
{"id": "C07", "title": "shift reads the periodic neighbour (one node)", "statement": "shift(f, sign, mu) evaluated at coordinate x equals f at x with x[mu] replaced by (x[mu]+-1) mod L[mu], whatever the storage order.", "quantifier": "all fields, extents, orderings, directions, sites", "why_tests_cant": "the gather table is built from the layout at run time for arbitrary lattices", "anchors": ["lib/qdp_map.cc", "lib/qdp_scalar_specific.cc: Map::make", "include/qdp_scalar_specific.h: Map::operator(), ForEach<UnaryNode<FnMap,..>>"]}
{"id": "C08", "title": "Forward and backward shifts cancel", "statement": "shift(shift(f,FORWARD,mu),BACKWARD,mu) == f and vice versa; shifts in different directions commute; L[mu] forward shifts are the identity.", "quantifier": "all fields, extents, directions, orderings", "why_tests_cant": "round-trip over all lattice shapes", "anchors": ["lib/qdp_map.cc: NearestNeighborMapFunc", "lib/qdp_scalar_specific.cc: Map::make"]}
{"id": "C09", "title": "The distributed map delivers the same field as the single-node map", "statement": "For a coordinate map whose off-node communication is with one source and one destination node, the field a node obtains from the gather/send/receive protocol at each of its sites equals the globally mapped field at that coordinate, for any machine grid.", "quantifier": "all coordinate maps accepted by Map::make, all machine grids, all nodes and sites, any per-node data", "why_tests_cant": "message contents depend on matching enumeration orders on two different nodes; small tests use one geometry", "anchors": ["lib/qdp_parscalar_specific.cc: Map::make", "include/qdp_parscalar_specific.h: Map::operator()"]}
{"id": "C10", "title": "Map communication schedules match", "statement": "For a bijective coordinate map, if node A plans to receive from B then B plans to send to A, the number of sites sent equals the number expected, and nothing is sent to oneself; so a neighbour exchange neither deadlocks nor truncates.", "quantifier": "all bijective maps, machine grids, ordered pairs of nodes", "why_tests_cant": "a mismatch shows only on particular node grids", "anchors": ["lib/qdp_parscalar_specific.cc: Map::make (srcenodes, destnodes, counts, soffsets)"]}
{"id": "C11", "title": "Seed multiplication is multiplication modulo 2^47", "statement": "The product of two random-number seeds, computed on three 12-bit and one 11-bit limbs, represents the product of the represented integers modulo 2^47, limbs stay in range, and no intermediate exceeds a signed 32-bit integer.", "quantifier": "all pairs of seeds (2^94 pairs)", "why_tests_cant": "the input space is far too large and overflow happens only near the limb maxima", "anchors": ["include/qdp_primseed.h: operator*(PSeed,PSeed), operator<<, assign"]}
{"id": "C12", "title": "Random fields do not depend on machine or layout", "statement": "The number drawn at a lattice site by random(lattice) depends only on the seed and the site's lexicographic position, so every node count, node grid and site ordering yields the same global field and the same new seed.", "quantifier": "all seeds, lattice extents, orderings, machine grids and sites", "why_tests_cant": "cannot run every decomposition", "anchors": ["lib/qdp_random.cc: RNG::initRNG, sranf", "include/qdp_scalar_specific.h: random", "include/qdp_parscalar_specific.h: random"]}
{"id": "C13", "title": "Random streams of different sites and draws are disjoint pieces of one sequence", "statement": "The k-th draw at lexicographic site l after seed s is element (l+1)+k*(vol+1) of the scalar generator sequence started at s; no two (site, draw) pairs use the same element and the global seed itself is never used for a site.", "quantifier": "all seeds, volumes, sites, numbers of draws", "why_tests_cant": "overlap could occur for any pair among vol*draws", "anchors": ["lib/qdp_random.cc: initRNG (lattice_ran_mult, ran_mult_n), sranf", "include/qdp_scalar_specific.h: random"]}
{"id": "C14", "title": "Saving and restoring the seed replays the stream", "statement": "After savern(s) ... setrn(s), any later history of scalar and lattice random calls returns exactly the same values as it did the first time.", "quantifier": "all histories of random calls between and after, all seeds", "why_tests_cant": "quantifies over histories", "anchors": ["lib/qdp_random.cc: RNG::setrn, savern, sranf"]}
{"id": "C15", "title": "random() on a subset leaves one well-defined seed on every node and thread count", "statement": "After random(field, subset) the global seed is the old seed advanced by the fixed number of draws, on every node, for every thread schedule, also when the subset is empty on a node or has fewer sites than threads.", "quantifier": "all subsets, all node-local site counts including zero, all thread counts and critical-section orders", "why_tests_cant": "depends on scheduling and on subsets that are empty on some nodes", "anchors": ["include/qdp_scalar_specific.h: random(OLattice,Subset)", "include/qdp_parscalar_specific.h: random(OLattice,Subset)"]}
{"id": "C16", "title": "Uniform deviates lie in [0,1)", "statement": "The float made from a seed equals seed/2^47 when evaluated without rounding, hence lies in [0,1) and is injective in the seed; with single-precision rounding it can reach 1.", "quantifier": "all seeds", "why_tests_cant": "2^47 seeds", "anchors": ["include/qdp_primseed.h: seedToFloat"]}
{"id": "C17", "title": "RANNYU generator is the documented 48-bit linear congruential generator", "statement": "Each call of RANNYU random() replaces the 48-bit seed s by (31167285*s + 1) mod 2^48 (as the file header documents) and returns that number divided by 2^48, in [0,1).", "quantifier": "all seeds", "why_tests_cant": "2^48 seeds; wrong top limb is invisible in low limbs", "anchors": ["lib/qdp_rannyu.cc: __rand, random"]}
{"id": "C18", "title": "RANNYU honours the seed it is given", "statement": "After RANNYU::setrn(s), the following sequence of random() values is a function of s alone, and savern returns s, whatever happened before, including when nothing happened before.", "quantifier": "all seeds, all call histories", "why_tests_cant": "history-dependent: fails only when setrn is the first call", "anchors": ["lib/qdp_rannyu.cc: setrn, savern, random, inited"]}
{"id": "C19", "title": "crc32 is the reflected CRC-32 polynomial remainder", "statement": "The table-driven checksum equals the bit-serial CRC-32 (polynomial 0x04C11DB7 reflected, initial and final complement) of the bytes, for every buffer length, in spite of 8-way unrolling.", "quantifier": "all byte strings, all starting checksums", "why_tests_cant": "unbounded inputs", "anchors": ["lib/qdp_crc32.cc: crc32, crc_table, make_crc_table"]}
{"id": "C20", "title": "Checksums are incremental", "statement": "crc32(crc32(c,a),b) == crc32(c,a++b); a null buffer resets to 0, an empty one keeps the checksum.", "quantifier": "all checksums, all splits of all byte strings", "why_tests_cant": "unbounded", "anchors": ["lib/qdp_crc32.cc: crc32"]}
{"id": "C21", "title": "The checksum detects every short burst error", "statement": "Two equal-length buffers that differ only within a window of 32 consecutive bits (at least one bit) have different crc32; in particular any single changed byte or 4-byte word is detected.", "quantifier": "all buffers, all positions, all non-zero bursts of at most 32 bits", "why_tests_cant": "all positions in all messages", "anchors": ["lib/qdp_crc32.cc: crc32", "lib/qdp_io.cc: readArrayPrimaryNode, writeArrayPrimaryNode", "include/qdp_map_obj_disk.h: get, insert"]}
{"id": "C22", "title": "byte_swap reverses each element and is its own inverse", "statement": "For element sizes 1,2,4,8,16 byte_swap reverses the bytes in each of nmemb consecutive elements, leaves everything else alone, and applying it twice restores the buffer; other sizes terminate the program.", "quantifier": "all buffers, element counts and sizes", "why_tests_cant": "unbounded buffers", "anchors": ["lib/qdp_byteorder.cc: byte_swap"]}
{"id": "C23", "title": "Binary files are big-endian and round-trip on any host", "statement": "Whatever the host byte order, writing a primitive array produces the same (big-endian) file bytes, leaves the caller's buffer unchanged, and reading them back, on a host of either byte order, reproduces the values.", "quantifier": "all values, sizes, counts, host byte orders of writer and reader", "why_tests_cant": "needs both kinds of host and all values", "anchors": ["lib/qdp_io.cc: BinaryWriter::writeArrayPrimaryNode, BinaryReader::readArrayPrimaryNode", "lib/qdp_byteorder.cc: bfwrite, bfread"]}
{"id": "C24", "title": "Container records round-trip and are self-delimiting", "statement": "Reading what write() produced for multi1d..multi5d, multiNd, vector, list, map, pair, complex and descriptor strings restores the value and consumes exactly the bytes written, for arbitrarily nested containers, so records can be concatenated.", "quantifier": "all container values (sizes below 2^31), all element codecs that round-trip, all following data", "why_tests_cant": "unbounded nesting and size", "anchors": ["include/qdp_io.h: read/write for multi1d, multi2d, ..., std::map", "lib/qdp_io.cc: writeDesc, readDesc"]}
{"id": "C25", "title": "Newline-terminated strings round-trip only under stated limits", "statement": "write(string)/read(string,maxBytes) round-trips iff the text has no newline or NUL and is shorter than maxBytes; in that case the reader's checksum equals the writer's.", "quantifier": "all strings and limits", "why_tests_cant": "boundary conditions for all strings", "anchors": ["lib/qdp_io.cc: BinaryWriter::write(const std::string&), BinaryReader::read(std::string&,size_t)"]}
{"id": "C26", "title": "Reader and writer checksums agree", "statement": "If the same stretch of bytes is written by any sequence of write calls and read back by any other sequence of read calls covering it, starting from a reset, getChecksum on both sides is equal, on hosts of any byte order.", "quantifier": "all write sequences, all read chunkings, both byte orders", "why_tests_cant": "all chunkings", "anchors": ["lib/qdp_io.cc: getChecksum, resetChecksum, readArrayPrimaryNode, writeArrayPrimaryNode"]}
{"id": "C27", "title": "A lattice file is in lexicographic order whatever the machine", "statement": "write(bin, lattice) produces the concatenation of the site records in lexicographic coordinate order, for every machine grid and storage order; multi-node and single-node programs produce identical files.", "quantifier": "all fields, extents, orderings, machine grids", "why_tests_cant": "cannot run every geometry", "anchors": ["lib/qdp_parscalar_specific.cc: writeOLattice", "include/qdp_scalar_specific.h: write(BinaryWriter,OLattice)"]}
{"id": "C28", "title": "Lattice files can be read back on a different machine", "statement": "read(bin, lattice) of a file written by write(bin, lattice) restores the field at every coordinate, even when writer and reader use different machine grids or site orderings; bytes after the record are untouched.", "quantifier": "all fields and pairs of geometries", "why_tests_cant": "pairs of geometries are unbounded", "anchors": ["lib/qdp_parscalar_specific.cc: readOLattice, writeOLattice", "include/qdp_scalar_specific.h: read"]}
{"id": "C29", "title": "Subset and single-site lattice I/O touch only their sites", "statement": "write of a subset emits exactly the subset's records in lexicographic order, and read into a subset restores exactly those sites and leaves all others unchanged; same for a single coordinate.", "quantifier": "all subsets, coordinates, fields, geometries", "why_tests_cant": "all subsets", "anchors": ["lib/qdp_parscalar_specific.cc: writeOLattice(Subset), readOLattice(Subset)", "include/qdp_scalar_specific.h: write(OSubLattice), read(OSubLattice)"]}
{"id": "C30", "title": "Time-slice I/O is the slice of the full file", "statement": "Writing time slice t emits exactly the bytes that positions [t*V3,(t+1)*V3) of the full lattice file would hold, and reading restores just the sites with that last coordinate; an out-of-range t is rejected.", "quantifier": "all extents, time slices, fields, geometries", "why_tests_cant": "all shapes", "anchors": ["include/qdp_disk_map_slice.h: TimeSliceIO", "lib/qdp_parscalar_specific.cc: LatticeTimeSliceIO"]}
{"id": "C31", "title": "In-memory map object behaves as a finite map", "statement": "For any history of insert/get/exist/erase/keys/size operations a MapObjectMemory returns what an abstract finite map would; insert overwrites, get of an absent key reports an error and changes nothing.", "quantifier": "all operation histories, key and value types", "why_tests_cant": "histories", "anchors": ["include/qdp_map_obj_memory.h: MapObjectMemory"]}
{"id": "C32", "title": "On-disk map object behaves as a finite map while open", "statement": "For any history of insert and get on an open MapObjectDisk, get(k) returns the value most recently inserted for k.", "quantifier": "all operation histories, including interleaved gets and updates", "why_tests_cant": "failure needs a specific interleaving (lookup or update, then insertion of a new key)", "anchors": ["include/qdp_map_obj_disk.h: insert, get", "lib/qdp_io.cc: BinaryReaderWriter::currentPosition, seek"]}
{"id": "C33", "title": "On-disk map object persists across close and reopen", "statement": "After close, reopening the file (also read-only and in another process) gives the same user data, the same key set and the same values, and further insertions and closes keep this true.", "quantifier": "all key/value histories and numbers of open/close cycles", "why_tests_cant": "histories", "anchors": ["include/qdp_map_obj_disk.h: openRead, openWrite, closeWrite, writeMapBinary, readMapBinary, writeSkipHeader, readCheckHeader"]}
{"id": "C34", "title": "A crash while appending keeps the last flushed map", "statement": "If a process that only inserts new keys dies at any point, with any prefix of its file writes applied, the file still opens and shows exactly the records present at the last completed flush/close.", "quantifier": "all histories and all crash points (prefixes of the byte-write sequence)", "why_tests_cant": "every byte of every write is a crash point", "anchors": ["include/qdp_map_obj_disk.h: insert, flush, closeWrite"]}
{"id": "C35", "title": "File positions survive their on-disk encoding", "statement": "Converting a file position to the pair stored in the file and back gives the same position for every representable offset and the conversion is free of undefined behaviour.", "quantifier": "all 64-bit file offsets", "why_tests_cant": "needs every offset; large ones cannot be produced in a test", "anchors": ["include/qdp_map_obj_disk.h: convertToPrivate, convertFromPrivate"]}
{"id": "C36", "title": "Opening an on-disk map object shows that file only", "statement": "After open(file), the keys and values visible are those of that file, even when the same object was previously used with another file.", "quantifier": "all pairs of files, all histories of reuse", "why_tests_cant": "state carried over between opens", "anchors": ["include/qdp_map_obj_disk.h: open, close, src_map"]}
{"id": "C37", "title": "Multi-file map object is the left-biased union of its files", "statement": "MapObjectDiskMultiple answers exist/get from the first file that contains the key, keys() is the union, and it never modifies any file.", "quantifier": "all lists of files and key sets", "why_tests_cant": "all file lists", "anchors": ["include/qdp_map_obj_disk_multiple.h"]}
{"id": "C38", "title": "Multi-dimensional arrays address distinct elements", "statement": "multi2d..multi5d element access is injective on in-range indices, stays inside the allocation, covers it, and a(j,i) agrees with a[j][i].", "quantifier": "all extents and index tuples", "why_tests_cant": "all extents", "anchors": ["include/qdp_multi.h: multi2d, multi3d, multi4d, multi5d operator(), operator[]"]}
{"id": "C39", "title": "Rank-generic arrays address distinct elements consistently", "statement": "multiNd access by separate indices a(j,i), by index list a[{j,i}] and by flat offset all denote the same element and distinct in-range indices denote distinct elements.", "quantifier": "all ranks up to the supported one, all extents and indices", "why_tests_cant": "square test arrays hide a wrong stride", "anchors": ["include/qdp_multi.h: multiNd::operator(), operator[], getElem"]}
{"id": "C40", "title": "Array assignment copies values", "statement": "After a = b, a has b's shape and values, b is unchanged, later writes to a do not affect b; this includes a = a.", "quantifier": "all arrays, shapes, aliasing patterns including self-assignment", "why_tests_cant": "aliasing corner case", "anchors": ["include/qdp_multi.h: multi1d::operator=, multi2d::operator=, ..."]}
{"id": "C41", "title": "Array comparison is a total order compatible with equality", "statement": "On multi1d, == is an equivalence, < is a strict weak (lexicographic) order, exactly one of a<b, a==b, a>b holds, and <=, >= are their closures; so arrays can be map keys.", "quantifier": "all arrays of all sizes including empty", "why_tests_cant": "triples of arrays", "anchors": ["include/qdp_multi.h: operator==, <, >, <=, >="]}
{"id": "C42", "title": "Gamma(n) is the ordered product of basis gamma matrices", "statement": "For n=0..15, multiplying a spin vector or matrix from left or right by Gamma(n) equals multiplying by g1^{n0} g2^{n1} g3^{n2} g4^{n3} of the bits of n; the basis matrices are hermitian, square to one and anticommute; the same holds in the Dirac-Pauli basis.", "quantifier": "all spinors and spin matrices over any commutative ring with a square root of -1, all n", "why_tests_cant": "values of the components are arbitrary; there are 128 hand-written tables", "anchors": ["include/qdp_primspinmat.h: operator*(GammaConst..)", "include/qdp_primspinvec.h: operator*(GammaConst..)", "include/qdp_primgamma.h"]}
{"id": "C43", "title": "Spin projection and reconstruction implement 1 +- gamma_mu", "statement": "spinReconstructDirNPlus(spinProjectDirNPlus(psi)) == (1+gamma_N) psi, likewise Minus, for all four directions, for the generic and the site-inlined implementations; applying it twice multiplies by 2. spinProject and spinReconstruct choose the right one at run time and stop on any other direction or sign.", "quantifier": "all spinors over any commutative ring with i", "why_tests_cant": "arbitrary component values", "anchors": ["include/qdp_primspinvec.h: spinProjectDir*, spinReconstructDir*", "include/scalarsite_generic/generic_spin_proj_inlines.h", "include/scalarsite_generic/generic_spin_recon_inlines.h", "include/qdp_globalfuncs.h:343-458"]}
{"id": "C44", "title": "Two-row gauge archives restore SU(3) links", "statement": "Reading a NERSC archive in two-row format restores exactly every link that is in SU(3); the reconstructed third row is always orthogonal to the first two, and the matrix has determinant equal to the squared area (1 for orthonormal rows).", "quantifier": "all SU(3) matrices (exact arithmetic), all lattices", "why_tests_cant": "continuum of matrices", "anchors": ["lib/qdp_scalar_specific.cc: readArchiv, writeArchiv", "lib/qdp_parscalar_specific.cc: readArchiv, writeArchiv"]}
{"id": "C45", "title": "Archive checksum does not depend on layout or machine", "statement": "computeChecksum(u) equals the sum modulo 2^32 of the 32-bit words of the stored rows, independent of machine grid and site order, and equals the value readArchiv computes from the file written by writeArchiv.", "quantifier": "all gauge fields, geometries, both row formats", "why_tests_cant": "all geometries", "anchors": ["lib/qdp_scalar_specific.cc: computeChecksum, readArchiv", "lib/qdp_parscalar_specific.cc: computeChecksum, readArchiv"]}
{"id": "C46", "title": "Archive header round-trips", "statement": "readArchiv recovers the header fields (sizes, boundary conditions, storage format, checksum, labels) that writeArchiv stored.", "quantifier": "all headers with periodic/antiperiodic boundary choices, both matrix sizes", "why_tests_cant": "only non-default headers fail", "anchors": ["lib/qdp_iogauge.cc: writeArchivHeader, readArchivHeader, read/write(XML..., ArchivGauge_t)"]}
{"id": "C47", "title": "Threaded loops cover each site exactly once", "statement": "Splitting n sites over any number of threads gives consecutive disjoint ranges covering 0..n-1, sizes differing by at most one; so a threaded site-wise assignment equals the serial one in every interleaving.", "quantifier": "all n and thread counts (product below 2^31), all interleavings", "why_tests_cant": "schedules", "anchors": ["include/qdp_dispatch.h: dispatch_to_threads"]}
{"id": "C48", "title": "Site-wise assignment touches exactly the subset", "statement": "dest[s] = expr sets dest at each site of s to the value of expr there computed from the state before the statement and leaves all other sites alone; reading dest at the same site is safe; reading dest through a shift is not.", "quantifier": "all expressions, subsets, thread interleavings", "why_tests_cant": "schedules and aliasing", "anchors": ["include/qdp_scalar_specific.h: evaluate, evaluate_userfunc, Map::operator()", "include/qdp_parscalar_specific.h: evaluate"]}
{"id": "C49", "title": "Global sums agree on all nodes", "statement": "The ring-based deterministic sum returns bit-identical results on every node, equal to adding contributions in one fixed order, for any process-grid; for an exact commutative addition it is the sum over all nodes.", "quantifier": "all machine grids, all data, also for non-associative (floating point) addition", "why_tests_cant": "bit-identity over all data", "anchors": ["lib/qdp_parscalar_global_sum.cc: sumTDirection, sumT"]}
{"id": "C50", "title": "Sums over a Set partition the total", "statement": "sumMulti(f, set)[k] equals the sum of f over subset k, and adding over k gives sum(f); results do not depend on thread count under exact addition.", "quantifier": "all fields, sets, thread counts", "why_tests_cant": "all thread counts", "anchors": ["include/qdp_scalar_specific.h: sum, sumMulti"]}
{"id": "C51", "title": "Default allocator returns aligned, disjoint blocks and frees exactly them", "statement": "Every live pointer from allocate is aligned, live blocks do not overlap, free of a live pointer releases exactly its underlying block, free of an unknown pointer is rejected; over any allocate/free history there is no leak or double free.", "quantifier": "all histories, sizes, and underlying malloc behaviours", "why_tests_cant": "histories", "anchors": ["lib/qdp_default_allocator.cc: allocate, free"]}
{"id": "C52", "title": "Pool allocator returns aligned, disjoint blocks", "statement": "Blocks handed out are aligned, inside their pool block, disjoint, and freeing returns exactly the pool block; exhaustion is reported rather than returned as a pointer.", "quantifier": "all histories and pool behaviours including exhaustion", "why_tests_cant": "exhaustion and histories", "anchors": ["lib/qdp_pool_allocator.cc", "include/qdp_pool_allocator.h"]}
{"id": "C53", "title": "Stop watch accumulates exactly the running intervals", "statement": "After any alternation of start/stop (and reset) the reported time is the sum of the measured intervals, microseconds normalised; misuse (stop without start, start twice) is rejected; a backwards clock is reported.", "quantifier": "all histories and clock readings", "why_tests_cant": "histories and clock values", "anchors": ["lib/qdp_stopwatch.cc: StopWatch"]}
{"id": "C54", "title": "uniquify_list lists each value once", "statement": "uniquify_list returns the distinct values of its argument in order of first occurrence.", "quantifier": "all lists including the empty list", "why_tests_cant": "empty list is undefined behaviour", "anchors": ["lib/qdp_util.cc: uniquify_list"]}
{"id": "C55", "title": "Seeking a read/write buffer moves both reading and writing", "statement": "After seek(pos) on a BinaryReaderWriter the next write lands at pos and currentPosition reports where the next byte goes, for files and for memory buffers.", "quantifier": "all histories of seek/read/write", "why_tests_cant": "histories", "anchors": ["lib/qdp_io.cc: BinaryReaderWriter::seek*, BinaryBufferReaderWriter, BinaryFileReaderWriter"]}
{"id": "C56", "title": "Compound assignment by a scalar uses the scalar's value at the call", "statement": "For a multi1d a, each of a += s, a -= s, a *= s, a /= s changes every element a[i] to a[i] op s with the value s had at the call, also when s is a reference to an element of a.", "quantifier": "all arrays, operations and scalars, including references into the array", "why_tests_cant": "aliasing corner case", "anchors": ["include/qdp_multi.h: multi1d::operator+=(const T&), -=, *=, /="]}
{"id": "C57", "title": "Chiral projections are the projectors (1 ± gamma_5)/2", "statement": "Twice chiralProjectPlus/Minus of a spinor is (1 ± Gamma(15)) applied to it in the default basis; the two are idempotent, annihilate each other and add up to the identity.", "quantifier": "all spinors over any additive group with multiplication by i", "why_tests_cant": "arbitrary component values", "anchors": ["include/qdp_primspinvec.h: chiralProjectPlus, chiralProjectMinus", "include/qdp_primspinmat.h: chiralProjectPlus, chiralProjectMinus"]}
{"id": "C58", "title": "globalMax and globalMin return the extreme value wherever it lies", "statement": "globalMax(f) (globalMin(f)) is a value of f that no value of f exceeds (undercuts), independent of the order and distribution of the sites; if the field contains a not-a-number the result still does not depend on the layout.", "quantifier": "all fields, site orders and distributions over nodes", "why_tests_cant": "position-dependence of special values", "anchors": ["include/qdp_scalar_specific.h: globalMax, globalMin", "include/qdp_parscalar_specific.h: globalMax, globalMin"]}
{"id": "C59", "title": "isnan, isinf, isfinite, isnormal test the numbers of a field", "statement": "For every nesting of lattice, matrix, vector, complex and scalar types: isnan (isinf) is true iff some machine number in the object is a NaN (infinite); isfinite (isnormal) is true iff all are finite (normal); on several nodes every node gets the answer for the whole lattice.", "quantifier": "all values of all nested types, all node counts", "why_tests_cant": "all combinations of special values; memory accesses of the reduction", "anchors": ["include/qdp_primmatrix.h: isnan, isinf, isnormal, isfinite", "include/qdp_primvector.h", "include/qdp_primspinvec.h", "include/qdp_reality.h", "include/qdp_parscalar_specific.h: globalAnd, globalOr"]}
{"id": "C60", "title": "The vector kernels behind evaluate compute the statement as written", "statement": "Every specialisation of evaluate for expressions of fermion fields, numbers, chiral projections and gamma_5 (83 expression/assignment combinations) leaves in the destination, on the sites of the subset, the value of the expression written by the user, and changes nothing else; the same field may appear at several places, also as destination; result equals that of the general evaluate loop.", "quantifier": "all 83 specialisations, all fields, numbers, subsets (contiguous or not), numbers of threads, interleavings, aliasing patterns", "why_tests_cant": "all interleavings and alias patterns of unrolled code with hand-scheduled loads", "anchors": ["include/scalarsite_generic/qdp_scalarsite_generic_blas.h", "include/scalarsite_generic/qdp_scalarsite_generic_cblas.h", "include/scalarsite_generic/qdp_scalarsite_generic_blas_g5.h", "include/scalarsite_generic/generic_blas_*.h"]}
{"id": "C61", "title": "The vector kernels access only the sites they are given", "statement": "No specialisation of evaluate reads or writes outside the fields named in the statement.", "quantifier": "all 83 specialisations, all subsets including the last site of the node", "why_tests_cant": "an out-of-bounds read whose value is unused has no visible result", "anchors": ["include/scalarsite_generic/generic_blas_vadd3_g5.h", "include/scalarsite_generic/generic_blas_vaypx3_g5.h", "include/scalarsite_generic/generic_blas_vaxpy3_g5.h", "include/scalarsite_generic/generic_blas_vaxpby3_g5.h"]}
{"id": "C62", "title": "Fused operations equal the compositions they replace", "statement": "For every nesting of scalars, vectors and matrices over real or complex numbers: adjMultiply(l,r)=adj(l)*r, multiplyAdj(l,r)=l*adj(r), adjMultiplyAdj(l,r)=adj(l)*adj(r), traceMultiply(l,r)=trace(l*r), traceColorMultiply/traceSpinMultiply(l,r)=traceColor/traceSpin(l*r), realTrace=real(trace), localInnerProduct(l,r)=trace(adj(l)*r), localInnerProductReal=real(localInnerProduct), localNorm2(x)=localInnerProductReal(x,x), traceSpinOuterProduct=traceSpin(outerProduct).", "quantifier": "all types built from the five constructors with any extents, all values over any commutative ring, wherever the overload exists", "why_tests_cant": "the overloads are templates; tests instantiate a few types", "anchors": ["include/qdp_primmatrix.h: adjMultiply, multiplyAdj, traceMultiply", "include/qdp_primvector.h", "include/qdp_primscalar.h", "include/qdp_reality.h", "include/qdp_primspinmat.h: traceSpinMultiply, traceSpinOuterProduct", "include/qdp_primcolormat.h: traceColorMultiply"]}
{"id": "C63", "title": "imagTrace is the imaginary part of the trace", "statement": "imagTrace(x) = imag(trace(x)) for every type that has a trace.", "quantifier": "all types without vector level, all values over any commutative ring", "why_tests_cant": "the real-number instance is rarely instantiated", "anchors": ["include/qdp_reality.h: imagTrace", "include/qdp_primmatrix.h: imagTrace"]}
{"id": "C64", "title": "Site operators are the operations on the tensor-product space", "statement": "A site object read as one matrix indexed by (spin, colour) pairs: operator* is the matrix product (or multiplication by a number at each level), adj the conjugate transpose, conj, transpose, trace, localInnerProduct, localNorm2, outerProduct likewise; hence adj(l*r)=adj(r)*adj(l) and trace(l*r)=trace(r*l).", "quantifier": "all types and extents, all values over any commutative ring", "why_tests_cant": "nesting of templates: the laws hold for all types only if each level is right for arbitrary inner levels", "anchors": ["include/qdp_primmatrix.h", "include/qdp_primvector.h", "include/qdp_primscalar.h", "include/qdp_reality.h"]}
{"id": "C65", "title": "Colour and spin contractions are the epsilon contractions they are named after", "statement": "colorContract(s1,s2,s3) = sum eps_abc eps_ijk s1_ai s2_bj s3_ck (6 det on equal arguments), quarkContractXX likewise with one pair open, colorContract of vectors, colorCrossProduct, colorVectorContract, quarkContract13..34, traceSpinQuarkContract13, localColorInnerProduct the sums they document; contractions of colour-rotated quarks change by the determinants of the rotations only.", "quantifier": "all matrices and vectors over any commutative ring, all spin extents", "why_tests_cant": "36 signed products written out by hand", "anchors": ["include/qdp_primcolormat.h: colorContract, quarkContractXX", "include/qdp_primcolorvec.h: colorContract, colorCrossProduct, colorVectorContract", "include/qdp_primspinmat.h: quarkContract13-34, traceSpinQuarkContract13"]}
{"id": "C66", "title": "Rewriting of expressions at construction preserves their value", "statement": "For every program expression, the tree built by the specialised overloads of operator*, trace, traceColor, traceSpin and real has at every site the value of the expression as written, whenever it compiles.", "quantifier": "all expressions of any depth, types and values", "why_tests_cant": "rewrites fire depending on the shape of subtrees; shapes are unbounded", "anchors": ["include/qdp_optops.h"]}
{"id": "C67", "title": "Specialised SU(3) operators agree with the general operators", "statement": "Each specialisation of operator*, adjMultiply, multiplyAdj and operator+ for 3x3 complex matrices and vectors, half fermions and fermions in the generic linear-algebra header returns what the general template returns, whatever the freshly constructed result object held.", "quantifier": "all 18 specialisations, all operands over any commutative ring", "why_tests_cant": "hundreds of hand-written products of real and imaginary parts; a wrong sign shows only on matching operands", "anchors": ["include/scalarsite_generic/qdp_scalarsite_generic_linalg.h", "include/scalarsite_generic/generic_mat_vec.h", "include/scalarsite_generic/generic_mult_nn.h", "include/scalarsite_generic/generic_mult_na.h", "include/scalarsite_generic/generic_mult_an.h", "include/scalarsite_generic/generic_addvec.h"]}
{"id": "C68", "title": "half = matrix * half assigns the product on the subset", "statement": "The specialised evaluate of LatticeHalfFermion[s] = LatticeColorMatrix * LatticeHalfFermion leaves at every site of s the product of the operands before the statement and changes nothing else, also when the destination is the right operand.", "quantifier": "all fields, subsets, numbers of threads and interleavings, all alias patterns", "why_tests_cant": "scheduling and aliasing; fields used in tests rarely alias", "anchors": ["include/scalarsite_generic/qdp_scalarsite_generic_linalg.h:470-543", "include/scalarsite_generic/qdp_scalarsite_generic_linalg_wrapper.h", "include/scalarsite_generic/generic_mat_vec.h"]}
{"id": "C69", "title": "Norms and inner products of fermion fields are the sums over the subset", "statement": "norm2, innerProduct and innerProductReal of lattice fermions, with and without a subset and for arrays of fields, return the sum of the general site-wise operation over the sites of the subset, on every schedule of the threads; over all nodes this is the sum over the lattice.", "quantifier": "all fields over any commutative ring, subsets, lattice sizes, numbers of nodes and threads, all schedules, all array lengths", "why_tests_cant": "schedules of a reduction, sizes near the limits of int, arrays of different length", "anchors": ["include/scalarsite_generic/qdp_scalarsite_generic_blas.h:2222-2612", "include/scalarsite_generic/generic_blas_local_sumsq.h", "include/scalarsite_generic/generic_blas_local_vcdot.h", "include/scalarsite_generic/generic_blas_local_vcdot_real.h"]}
{"id": "C70", "title": "Arrays of integers survive XML, malformed text is an error", "statement": "Reading the XML text written for an array, vector or list of integers gives back the same integers; text that is not a sequence of integers of the type is rejected instead of being read as some other array.", "quantifier": "all integer types with array functions, all arrays of values in range, all texts", "why_tests_cant": "unbounded set of texts; the error path depends on which stream flags are set at the end of the text", "anchors": ["lib/qdp_xmlio.cc:310-401", "lib/qdp_xmlio.cc:424-488", "lib/qdp_xmlio.cc:524-581", "lib/qdp_xmlio.cc:869-886", "lib/qdp_xmlio.cc:1008-1025", "lib/qdp_xmlio.cc:1141-1161"]}
{"id": "C71", "title": "Nested containers survive XML", "statement": "Reading the element written for any nesting of multi1d, std::vector, std::list, std::map and std::pair of integers gives back the value written, whatever the object held before.", "quantifier": "all nestings of the container types, all values, all previous contents of the object", "why_tests_cant": "unbounded nesting of types; objects in tests are fresh", "anchors": ["include/qdp_xmlio.h:202-247", "include/qdp_xmlio.h:273-325", "include/qdp_xmlio.h:342-397", "include/qdp_xmlio.h:423-491", "include/qdp_xmlio.h:748-777", "include/qdp_xmlio.h:913-1018"]}
{"id": "C72", "title": "The XML array writer writes a well-formed array of the announced size", "statement": "For every sequence of calls of an XMLArrayWriter that does not stop the program, after the writer is destroyed the tags written are balanced, every element of the array has the tag elem, and the number of elements is the size announced.", "quantifier": "all call sequences, all sizes, all tag names", "why_tests_cant": "unbounded histories of a stateful object; empty arrays and size zero are corner states", "anchors": ["include/qdp_xmlio.h:1115-1175", "lib/qdp_xmlio.cc:1394-1521"]}
{"id": "C73", "title": "XML reading gives the same on all nodes as on one", "statement": "A program that reads XML gives on every node of a machine the values and the result it gives on a single node, also when a query is not found and the exception is handled.", "quantifier": "all programs (any dependence on values read, any handling of exceptions), all documents, all nodes", "why_tests_cant": "needs many nodes and missing entries; failure shows as a hang or as wrong values on some nodes", "anchors": ["lib/qdp_xmlio.cc:45-251", "lib/qdp_parscalar_specific.cc:250-288", "include/qdp_parscalar_specific.h:220-242"]}
{"id": "C74", "title": "The grid of I/O nodes covers the machine with the number of nodes asked for", "statement": "With an I/O grid of positive numbers every node is assigned an I/O node of the machine, which is its own I/O node; two nodes share their I/O node exactly if they lie in the same block of the machine; the number of I/O nodes is the number asked for.", "quantifier": "all machines, all numberings of nodes that are bijections, all I/O grids, all nodes", "why_tests_cant": "needs machines of many sizes; a wrong assignment shows only in partfile runs on large machines", "anchors": ["lib/qdp_qdpio.cc:40-94", "lib/qdp_parscalar_layout.cc:155-214"]}
{"id": "C75", "title": "Fields in QIO files survive machines, byte orders and precisions", "statement": "A field, an array of fields, a scalar or an array of scalars written to a QIO file is read back, on any machine of any number of nodes, ordering of sites and byte order, equal to what was written at every site of the record, bit for bit if the types agree and word by word converted if only the precision differs; a record that does not fit the field, in size, number or kind of its words, is refused.", "quantifier": "all pairs of machines and orderings, all byte orders, all fields and site types, all orders of access, all sets of sites", "why_tests_cant": "needs pairs of machines of every shape and byte order; type confusion is silent", "anchors": ["include/qdp_qdpio.h:834-1157", "include/qdp_qdpio.h:1183-1667", "lib/qdp_qdpio.cc:12-38"]}
{"id": "C76", "title": "The command line is read completely or refused", "statement": "QDP_initialize takes every option with all its values in any order and among any other words; a command line with a missing or malformed value or a misspelt option is refused with an error message.", "quantifier": "all command lines, all numbers of dimensions", "why_tests_cant": "all lists of words; the failures are undefined behaviour that may look like success", "anchors": ["lib/qdp_parscalar_init.cc:118-196", "lib/qdp_scalar_init.cc:76-122", "lib/qdp_parscalarvec_init.cc:28-133", "lib/qdp_scalarvec_init.cc:32-72"]}
{"id": "C77", "title": "Fields in HDF5 files survive machines, byte orders and precisions", "statement": "A field or an array of fields written to an HDF5 file by any machine is read back, on any machine with any number of nodes, ordering of sites and byte order, equal to what was written at every site, bit for bit if the precision agrees and number by number converted if it differs; the data set holds every site at its lattice coordinates however large the field is; a data set that does not fit the field is refused.", "quantifier": "all pairs of machines and orderings, all byte orders, all lattices, fields and site types, all lengths of arrays, both orders of the extents", "why_tests_cant": "needs pairs of machines of every shape; the splitting into pieces below 2 GB only runs for fields too large for tests; wrong sites are silent", "anchors": ["include/qdp_hdf5.h:90-126", "include/qdp_hdf5.h:653-879", "include/qdp_hdf5.h:1359-1471", "lib/qdp_hdf5.cc:279-298", "lib/qdp_hdf5.cc:770-1329", "lib/qdp_hdf5.cc:2155-2632"]}
{"id": "C78", "title": "Gauge fields in the format of Qlua are read as written", "statement": "writeQlua writes a gauge field only at a free name or, in the mode trunc, over another configuration, and refuses everything else; a gauge field written by writeQlua on any machine is read by readQlua on any machine with every matrix at its site; configurations and propagators of other programs in the same format are read with every matrix at its site.", "quantifier": "all pairs of machines, byte orders, lattices and gauge fields, everything that may be in the file before", "why_tests_cant": "on a lattice with all extents the same and a field that is random, a transposed field has the same plaquettes and norms", "anchors": ["lib/qdp_hdf5.cc:1343-1443", "lib/qdp_hdf5.cc:2634-2684"]}
{"id": "C79", "title": "Groups in HDF5 files are found by their paths", "statement": "cd, push, pop and mkdir go to the group that the path names, from the root or from the current group, make missing groups and change nothing else; an impossible path leaves the current group as it is; pop takes back push and mkdir stays in the current group; objectExists tells for every path if there is an object; every call ends.", "quantifier": "all files, current groups and paths as strings", "why_tests_cant": "all trees of groups and all strings; a call that does not end and a silent wrong group show only for particular paths", "anchors": ["lib/qdp_hdf5.cc:77-154", "lib/qdp_hdf5.cc:198-250", "lib/qdp_hdf5.cc:1597-1665"]}
{"id": "C80", "title": "Numbers, strings, arrays, scalars and attributes in HDF5 files survive", "statement": "A number, complex number, string, array, matrix, QDP scalar, array of scalars or attribute written under a name is read back under that name on a machine of any byte order; an object is replaced only in the mode trunc, a group never, and nothing else in the file changes; a write that cannot be carried out is refused; reading a missing name, a group, another type or another shape is refused.", "quantifier": "all files, names, values, lengths and shapes, both byte orders of writer and reader, both precisions", "why_tests_cant": "all trees of groups and all shapes; lost writes and overruns give no error; mixed precision and byte orders need different builds and machines", "anchors": ["include/qdp_hdf5.h:156-463", "include/qdp_hdf5.h:564-644", "include/qdp_hdf5.h:1001-1232", "include/qdp_hdf5.h:1326-1351", "lib/qdp_hdf5.cc:430-763", "lib/qdp_hdf5.cc:1738-2124"]}
{"id": "C81", "title": "In the library built for SSE, statements on double-precision colour matrices assign the product of the generic library", "statement": "d = l*r, adj(l)*r, l*adj(r), adj(l)*adj(r), the same with += and -=, and d = l, d += l, d -= l assign on each site of the subset the value the generic library assigns and change nothing else, also if the destination is an operand; the operators on single matrices return those values.", "quantifier": "all contents of the fields, all choices of fields for destination and operands, all subsets, all numbers of threads and interleavings, SSE2 and SSE3 versions of the kernels", "why_tests_cant": "all matrices and all interleavings; the tests of the kernels use distinct operands, and hand-ordered loads and stores err only when a field occurs twice", "anchors": ["lib/scalarsite_sse/qdp_scalarsite_linalg_double.cc:25-918", "lib/scalarsite_sse/sse_linalg_m_eq_mm_double.cc", "lib/scalarsite_sse/sse_linalg_m_eq_hm_double.cc", "lib/scalarsite_sse/sse_linalg_m_eq_mh_double.cc", "lib/scalarsite_sse/sse_linalg_m_eq_hh_double.cc", "lib/scalarsite_sse/sse_linalg_m_eq_scal_m_double.cc", "lib/scalarsite_sse/sse_linalg_m_peq_m_double.cc", "include/scalarsite_sse/qdp_scalarsite_sse_linalg_double.h:45-295"]}
{"id": "C82", "title": "In the library built for SSE, norm2, innerProduct and innerProductReal of fermion fields return the sum over the subset", "statement": "norm2(F,s), innerProduct(F,G,s), innerProductReal(F,G,s), the forms without a subset and those for arrays of fields return the sum over the sites of the subset of the site's |F|^2, <F,G> and Re<F,G>, independently of earlier calls and of the number of threads.", "quantifier": "all contents of the fields, all subsets, all numbers of threads, all earlier calls, all lengths of the arrays, SSE2 and SSE3 versions of the kernels", "why_tests_cant": "all fields, subsets, thread counts and histories of calls; the array of partial sums outlives a call and is wrong only if a subset has fewer sites than there are threads", "anchors": ["include/scalarsite_sse/qdp_scalarsite_sse_blas.h:2200-2782", "include/scalarsite_sse/qdp_scalarsite_sse_blas_double.h:2554-3026", "lib/scalarsite_sse/qdp_scalarsite_sse.cc:1356-1556", "lib/scalarsite_sse/sse_blas_local_sumsq_double.cc", "lib/scalarsite_sse/sse_blas_local_vcdot_double.cc", "lib/scalarsite_sse/sse_blas_local_vcdot_real_double.cc"]}
{"id": "C83", "title": "In the library built for SSE, a*x+y and the like for Dirac fermions assign what the statement says, in both precisions", "statement": "Each of the 28 specialisations of evaluate for Dirac fermions in single and the 28 in double precision assigns to the sites of the subset what the statement says and touches nothing else, also where the destination is one of the operands or operands coincide; a build with SSE and one without leave the same fields.", "quantifier": "all fields, factors, subsets, numbers of threads, interleavings, ways in which fields coincide; both loops of the kernels (few and many sites)", "why_tests_cant": "all interleavings and ways to alias; the kernel chosen depends on whether the fields coincide, and its loop on the number of sites given to a thread", "anchors": ["include/scalarsite_sse/qdp_scalarsite_sse_blas.h", "include/scalarsite_sse/qdp_scalarsite_sse_blas_wrapper.h", "include/scalarsite_sse/qdp_scalarsite_sse_blas_double.h:1-2552", "include/scalarsite_sse/qdp_scalarsite_sse_blas_double_wrapper.h", "lib/scalarsite_sse/qdp_scalarsite_sse.cc:764-1354", "lib/scalarsite_sse/sse_blas_vaxpy4_double.cc", "lib/scalarsite_sse/sse_blas_vaypx4_double.cc", "lib/scalarsite_sse/sse_blas_vaxpbyz4_double.cc", "lib/scalarsite_sse/sse_blas_vaxmyz4_double.cc", "lib/scalarsite_sse/sse_blas_vaxmbyz4_double.cc", "lib/scalarsite_sse/sse_blas_vscal4_double.cc"]}
{"id": "C84", "title": "In the library built for SSE, products and copies of single-precision colour matrices assign what the statement says", "statement": "d op l*r, adj(l)*r, l*adj(r), adj(l)*adj(r) and d op l, with op one of =, +=, -=, assign on the sites of the subset what the generic library assigns and nothing else, also if operands and destination coincide.", "quantifier": "all matrices, all subsets, all ways in which fields coincide", "why_tests_cant": "all subsets: only runs that begin at an odd site fault; the 324 statements behind the products are written out one by one in two branches each", "anchors": ["lib/scalarsite_sse/qdp_scalarsite_sse.cc:19-1103", "include/scalarsite_sse/qdp_scalarsite_sse_linalg.h"]}
{"id": "C85", "title": "Single sites are peeked and poked alike on any machine", "statement": "Every node runs the same program of peekSite and pokeSite calls with coordinates on the lattice, which may depend on values found before. Every execution ends without a node left waiting; all nodes obtain the values the program finds on one field that is a function of the coordinates, and the pieces on the nodes afterwards are those of that field. QDP_extract, QDP_insert and copymask change on the subset exactly what they say, in any order of their iterations.", "quantifier": "all programs, lattices, machines, site orders, fields, interleavings of the nodes and degrees of buffering in the message passing", "why_tests_cant": "all interleavings of send, receive and broadcast on all machines and all programs that depend on what they read", "anchors": ["include/qdp_parscalar_specific.h:45-57", "include/qdp_parscalar_specific.h:459-486", "include/qdp_parscalar_specific.h:1706-1855", "include/qdp_scalar_specific.h:281-306", "include/qdp_scalar_specific.h:1600-1730", "lib/qdp_parscalar_specific.cc:317-366"]}
{"id": "C86", "title": "A lattice program has the same results on every machine and in every interleaving", "statement": "Every node runs the same program of site-wise assignments on subsets, latticeCoordinate, maps and shifts, peekSite, pokeSite and sums over subsets, in which what happens next may depend on the values of peeks and sums. Every execution ends without a node left waiting, all nodes obtain the same result, and the pieces of the fields on the nodes are those of the fields as functions of the coordinates that the program has on a single lattice: the number of nodes, the order of the sites and the timing of messages have no influence if addition is exact; the timing has none in any arithmetic.", "quantifier": "all programs, lattices, machines, site orders, fields, interleavings of the nodes and degrees of buffering in the message passing", "why_tests_cant": "all interleavings of sends, receives, broadcasts and global sums of all programs on all machines", "anchors": ["include/qdp_parscalar_specific.h:45-84", "include/qdp_parscalar_specific.h:305-323", "include/qdp_parscalar_specific.h:724-760", "include/qdp_parscalar_specific.h:1749-1808", "include/qdp_parscalar_specific.h:1905-2093", "lib/qdp_parscalar_specific.cc:29-243", "lib/qdp_scalarsite_specific.cc:19-185"]}
{"id": "C87", "title": "Binary lattice I/O by communicating nodes agrees with the sequential reading of the code in every interleaving", "statement": "Whenever the calls of writeOLattice, readOLattice and their subset, single-site and time-slice versions on a stream, read as one program for the whole machine (C27-C30), complete, then the nodes running them as separate processes complete too: in every interleaving, with every degree of buffering in the message passing and whatever the uninitialised receive buffers contain, no node is left waiting, every node ends with its piece of the same field and the primary node with the same stream. In particular the file of a field depends on lattice and field only, and reading it gives every machine its pieces of that field.", "quantifier": "all series of calls, fields, lattices, machines, site orders, buffer contents, interleavings and degrees of buffering", "why_tests_cant": "all interleavings of the sends and receives of all machines, and all contents of uninitialised buffers", "anchors": ["lib/qdp_parscalar_specific.cc:297-372", "lib/qdp_parscalar_specific.cc:378-573", "lib/qdp_parscalar_specific.cc:576-775", "lib/qdp_parscalar_specific.cc:778-899"]}
{"id": "C88", "title": "Statements on sublattices act on the values at the sites of the subset, and their memory is managed correctly", "statement": "An OSubLattice, be it a view a[s] of a field or one with memory of its own, stands for the values at the sites of its subset: construction, copy, setSubset, assignment of numbers, scalars, zero and expressions, poke of components, assignment between sublattices and to a field, local inner products and sums give the values site by site and leave everything else as it was, whatever programs are written with them; no memory is freed twice, used after it was freed, or lost.", "quantifier": "all programs of such statements, subsets, site tables, fields, operations, contents of fresh memory", "why_tests_cant": "all programs, subsets and aliasings; undefined reads and lost memory need not show in a test", "anchors": ["include/qdp_outersubtype.h:24-82", "include/qdp_outersubtype.h:101-224", "include/qdp_qdpsubtype.h:40-160", "include/qdp_globalfuncs_subtype.h:32-177", "include/qdp_outer.h:240-247", "include/qdp_qdptype.h:374-388", "include/qdp_newops.h:368-391"]}
{"id": "C89", "title": "Arithmetic on fields is the arithmetic of complex numbers, whatever the types of the operands", "statement": "The value of an expression of real, complex and integer fields and C++ numbers, in any mixture of types, is at each site the complex number given by the operations written; the type of the result holds it. `a op= b` stores the operation applied to the old values, also when a and b are the same object, and agrees with `a op b`.", "quantifier": "all expressions of + - * /, unary minus, functions of one argument, fields and numbers of all types; all values; all aliasings", "why_tests_cant": "the expressions and combinations of types are infinitely many; the tests use floating-point operands", "anchors": ["include/qdp_reality.h:66-101", "include/qdp_reality.h:262-373", "include/qdp_reality.h:870-940", "include/qdp_reality.h:1830-2034", "include/PETE/TypeComputations.h:60-340", "include/QDPOperators.h:3719-3733", "include/QDPOperators.h:4279-4293"]}
{"id": "C90", "title": "A gaussian field is the Box-Muller transform of two uniform fields, at every site the same on every machine", "statement": "`gaussian(d, s)` with a seed other than zero succeeds: every deviate drawn lies in (0,1], so no logarithm of zero or root of a negative number is taken. Each element at a site of s becomes the Box-Muller transform (with 6.283185307 for 2 pi, an error of at most 2e-10 in the angle) of one element of each of two successive uniform fields; no element of the sequence is used twice; sites outside s are unchanged; the result depends only on seed, lattice, site and type. With exact 2 pi and independent uniform deviates the transform gives independent normal deviates of mean 0 and variance 1.", "quantifier": "all lattices, machines, layouts, subsets, seeds, site types of real or complex elements, precisions, numbers of threads, schedules; all measurable sets of values", "why_tests_cant": "a test samples finitely many seeds and can see a distribution only within statistical errors; the logarithm of zero would occur once in 2^47 draws", "anchors": ["include/qdp_reality.h:1781-1801", "include/qdp_reality.h:2542-2564", "include/qdp_parscalar_specific.h:569-588", "include/qdp_scalar_specific.h:385-402", "include/qdp_random.h:54-65", "lib/qdp_random.cc:195-235", "include/qdp_primmatrix.h:1568-1575", "include/qdp_primvector.h:844-850"]}
{"id": "C91", "title": "Reunitarization puts every matrix back into SU(Nc) by orthonormalizing its columns, and labels what it moved", "statement": "`reunit` replaces the matrix A at every site by a matrix Q of SU(Nc) (U(1) for one colour) whose columns are those of A orthonormalized from left to right (A = QR with R upper triangular and positive on the diagonal in the columns before the last, which the determinant fixes); it fails only where these columns are dependent. A matrix already in SU(Nc) is unchanged. `sigmasq` is the Frobenius distance between A and Q; REUNITARIZE_LABEL marks exactly the sites where it exceeds 1e-5 and counts them, REUNITARIZE_ERROR stops the run exactly if there is one.", "quantifier": "all numbers of colours, matrices, lattices, flags", "why_tests_cant": "tests reunitarize a few random matrices near SU(3); the branch for Nc > 3 is never compiled by them, and a wrong phase shows only for matrices whose determinant is not real and positive", "anchors": ["examples/reunit.cc:39-429", "examples/examples.h:21", "include/qdp_reality.h:2445-2453"]}
{"id": "C92", "title": "MesPlq returns the average plaquettes, gauge invariant and normalized to one, on every machine", "statement": "`MesPlq` returns in `w_plaq`, `s_plaq`, `t_plaq` the averages, over all sites and over all planes, the planes without and the planes with the last direction, of Re tr(u_mu(x) u_nu(x+mu) u_mu(x+nu)^dag u_nu(x)^dag) / Nc with periodic boundaries, whatever the machine, the distribution of the lattice, the network and the interleaving of the nodes, and does not change the gauge field. The averages are the same for a field and its transform by unitary matrices; of a unitary field they lie in [-1,1]; `w_plaq` is 1 exactly for the flat fields (every plaquette the unit matrix), so for all pure gauge fields.", "quantifier": "all lattices, dimensions, numbers of colours, gauge fields, machines, networks, interleavings", "why_tests_cant": "tests compare one number for one random field on one or two layouts; a wrong plane, neighbour or wrap-around changes it by less than the tolerance on random fields, whose average is near zero", "anchors": ["examples/mesplq.cc:23-78"]}
{"id": "C93", "title": "A random gauge transformation is one: special unitary matrices, links G(x) u G(x+mu)^dag, plaquettes unchanged", "statement": "`rgauge` leaves in `g` a matrix of SU(Nc) at every site (U(1) for one colour), whatever the random numbers (reunit never fails on the way), replaces every link u_mu(x) by g(x) u_mu(x) g(x+mu)^dag with periodic boundaries, and changes nothing else; so `MesPlq` before and after returns the same plaquettes. `taproj` is the orthogonal projection on the traceless antihermitian matrices and leaves them fixed; `expm12` is the exponential series to order twelve. All on every machine, network and interleaving.", "quantifier": "all lattices, dimensions, gauge fields, random matrices, machines, networks, interleavings; all Nc for the projection and the series", "why_tests_cant": "tests run one seed and compare plaquettes to rounding; that the twelfth-order exponential of an antihermitian matrix is never singular (where reunit divides by zero) is a statement about all matrices", "anchors": ["examples/rgauge.cc:21-47", "examples/taproj.cc:24-52", "examples/expm12.cc:21-44", "examples/reunit.cc:39-429"]}
{"id": "C94", "title": "polylp returns the average Polyakov loop, gauge invariant, on every machine", "statement": "`polylp(u,p,mu)` returns (1/(Nc Vol)) times the sum over all sites x of the trace of the ordered product u_mu(x) u_mu(x+mu) ... of the links once round the lattice in direction mu, whatever the machine, the network and the interleaving, and does not change u. The trace is the same from every site of the loop, is gauge invariant, at most one in absolute value for unitary links and one for unit links, and is multiplied by z if the links out of one slice are.", "quantifier": "all lattices, directions, numbers of colours, gauge fields, machines, networks, interleavings", "why_tests_cant": "tests compare one number for one field; the order of the product and the number of passes of the loop cannot be seen on abelian or constant fields", "anchors": ["examples/polylp.cc:20-38"]}
{"id": "C95", "title": "dslash and dslash2 apply the Wilson operator: one checkerboard written, the other read, adjoint for the other sign, gauge covariant", "statement": "`dslash(chi,u,psi,isign,cb)` sets chi on the sites of rb[cb] to sum_mu U_mu(x) (1 - s gamma_mu) psi(x+mu) + U_mu(x-mu)^dag (1 + s gamma_mu) psi(x-mu), with s the sign of isign, and leaves chi elsewhere, u and psi as they were, whatever the machine, the network and the interleaving, also if chi and psi are one field. `dslash2` gives the same, whatever its uninitialised temporaries hold. For even extents only the other checkerboard of psi enters. The operators of the two signs are adjoint to each other, related by gamma_5, linear and covariant under gauge transformations.", "quantifier": "all lattices of up to four dimensions (dslash2: four), numbers of colours, gauge and fermion fields, signs, checkerboards, contents of uninitialised temporaries, machines, networks, interleavings", "why_tests_cant": "tests compare dslash and dslash2 on one random field on an even lattice; a temporary that happens to hold zeros, a sign wrong in one component, or data read from the wrong checkerboard go unnoticed on special fields", "anchors": ["examples/dslashm_w.cc:45-122", "examples/dslashm_w.cc:125-246"]}
{"id": "C96", "title": "Arrays of floating-point numbers written to XML are read back as the same numbers", "statement": "An array (multi1d, std::vector or std::list) of float, double, Real32 or Real64 written to XML and read back has the same length and the same numbers. If a number cannot be represented in the text, the reader reports it.", "quantifier": "all arrays of finite, infinite and not-a-number values of both types, all lengths, all values of the reader's uninitialised variable", "why_tests_cant": "tests write a few short decimals; whether the digits kept identify every one of the 2^64 bit patterns, and what happens at the ends of the range, is a question about all values", "anchors": ["lib/qdp_xmlio.cc:310-355", "lib/qdp_xmlio.cc:424-461", "lib/qdp_xmlio.cc:524-542", "lib/qdp_xmlio.cc:919-1001", "lib/qdp_xmlio.cc:1053-1132", "lib/qdp_xmlio.cc:1189-1277"]}
{"id": "C97", "title": "What is written with a TextWriter is read back with a TextReader", "statement": "Values written with << to a TextFileWriter or TextBufferWriter (strings, characters, integers, booleans, floating-point numbers, complex numbers, colour and spin vectors and matrices, seeds) are read back with >> from a TextFileReader or TextBufferReader in the same order, with the same values, on every node; a reader that cannot find a value says so with fail().", "quantifier": "all sequences of values of all supported types, all texts between them, all values of the variables before the read, all nodes; all shapes of nested vectors and matrices", "why_tests_cant": "the test program writes one number; what is read depends on what was written next to it, on the signs of the numbers and on the state left by reads before", "anchors": ["include/qdp_io.h:20-400", "lib/qdp_io.cc:13-510", "include/qdp_reality.h:205-218", "include/qdp_reality.h:411-424", "include/qdp_primvector.h:180-200", "include/qdp_primmatrix.h:167-189", "include/qdp_primspinvec.h:148-168", "include/qdp_primseed.h:147-167"]}
{"id": "C98", "title": "Meson and current correlation functions: what is summed, where it is put, gauge invariance, current conservation", "statement": "mesons returns for each of the sixteen bilinears the sums over time slices of Re tr(adj(g5 S2 g5) G S1 G), entry s belonging to the slice that is s after the source, periodically; FormFac writes for every direction and all momenta with p^2 <= 4, each once, the local current and half the point-split current with the phase exp(ip.x), in the same order of times. Results do not depend on the machine, and do not change under gauge transformations; the pion is the sum of squares of the propagator and bounds the other channels; the point-split current built from propagators of the Wilson operator is conserved away from the sources, so that the charge is constant in time between them.", "quantifier": "all lattices, extents, directions of time, sources on the lattice, all propagators and gauge fields, any number of colours, all machines and interleavings", "why_tests_cant": "the example programs print numbers; that they are the right ones at every time, for sources at any place, on any number of nodes, and that the current they call conserved is conserved for every gauge field cannot be seen from runs", "anchors": ["examples/mesons_w.cc:11-88", "examples/formfac_w.cc:14-194"]}
{"id": "C99", "title": "Baryon correlation functions: Wick's theorem for the operators of the comment, placement in time, gauge invariance, spin and parity", "statement": "baryon returns nine lists; entry s of list 3k+j is the sum over the time slice that is s after the source of the correlation function of the operator given in the comment (proton, Lambda, Delta; matrix C g, C gamma_4 g, or their difference) with its Dirac adjoint, as Wick's theorem gives it, projected on positive parity and spin up; Lambda and Delta are halved. Slices beyond the end have a minus sign if bc_spec < 0, which is that of three antiperiodic quarks. The Lambda is three times the proton. The result does not depend on the machine and is invariant under SU(3) gauge transformations; in general the determinants appear. B_3 depends on the upper components only. The diquarks have spin 0 and spin 1 along the axis.", "quantifier": "all lattices, extents, directions of time, sources on the lattice, all propagators, all machines and interleavings; four spins and three colours", "why_tests_cant": "the programs print numbers; that the contractions of indices are those of Wick's theorem with the right signs and multiplicities for every propagator is an identity with hundreds of terms, and cannot be seen from runs", "anchors": ["examples/baryon_w.cc:83-238", "include/qdp_primspinmat.h:1747-1762", "include/qdp_primcolormat.h:611-690"]}
{"id": "C100", "title": "The vector library computes what the single-node library computes", "statement": "In the scalarvec library a field is an array of vectors of INNER_LEN sites. Single sites (peekSite, pokeSite, QDP_extract, QDP_insert, latticeCoordinate), maps and shifts, the operators of expressions, zero_rep, copymask and binary files give what the description site by site gives, on every layout; the file is byte for byte that of the other libraries; sums over subsets are the sums of the values at their sites; Layout::create sets up every lattice whose volume is a multiple of INNER_LEN and lattice statements can then be run.", "quantifier": "all lattices and one-node layouts whose volume is a multiple of the inner length, all inner lengths 2^k (maps: 4), all fields, subsets, expressions, contents of memory", "why_tests_cant": "needs a build with the vector library, which the tests do not make; wrong sums show up only for lattices whose checkerboards do not fill whole vectors, and only for some fields", "anchors": ["include/qdp_scalarvec_specific.h:58-133", "include/qdp_scalarvec_specific.h:400-600", "include/qdp_scalarvec_specific.h:758-957", "include/qdp_scalarvec_specific.h:1328-1413", "lib/qdp_scalarvec_layout.cc:126-187", "lib/qdp_scalarvec_specific.cc:15-45", "lib/qdp_scalarvecsite_specific.cc:18-37", "include/qdp_inner.h:3276-3370"]}
{"id": "C101", "title": "A gauge field saved in an archive is loaded again by every machine, and damage is noticed", "statement": "A file written by writeArchiv(header, u, file) on any machine (one process or many, any layout and byte order) is accepted by readArchiv(header, u, file) on any machine of the same lattice; the links loaded are those saved to within the accuracy of float (exactly those if they are exact as float), the header comes back with the right checksum; mesplq returns the average plaquette and link trace; a file in which a word of the links is changed is refused; whatever is accepted has the checksum, plaquette and link trace of the header; so what is accepted is what was saved. For both formats (two rows, three rows).", "quantifier": "all 4-dimensional lattices, all pairs of machines, all fields of SU(3) links, all headers that can be stored, all roundings to float and of the measurements within stated bounds, every single changed word", "why_tests_cant": "the tests write one file on one machine and read it there; a tolerance that is too tight shows on rare fields, one that is too loose on none; damage would have to be tried word by word", "anchors": ["lib/qdp_iogauge.cc:26-65", "lib/qdp_iogauge.cc:497-530", "lib/qdp_iogauge.cc:691-706", "lib/qdp_iogauge.cc:621-622", "lib/qdp_parscalar_specific.cc:1000-1240", "lib/qdp_scalar_specific.cc:140-330"]}
{"id": "C102", "title": "Norms, inner products and slice sums of arrays of fields", "statement": "norm2, innerProduct and innerProductReal of arrays of lattice fields return the sum over the members and over the sites of the subset, on one node and on many, for any number of threads; they obey the laws of a scalar product; sumMulti of an array of fields returns a table whose entry (k, j) is the sum of field k over the lattice sites of subset j. Arrays of different sizes are refused.", "quantifier": "all arrays, fields, subsets, layouts, numbers of nodes and threads, all distributions of the iterations over the threads (another one for every member), all orders of the critical sections", "why_tests_cant": "the schedule of the threads is chosen by the OpenMP run time; a member left out on a node with fewer sites than threads shows on no ordinary lattice", "anchors": ["include/qdp_parscalar_specific.h:106-121", "include/qdp_parscalar_specific.h:953-993", "include/qdp_parscalar_specific.h:1049-1360", "include/qdp_scalar_specific.h:877-912", "include/qdp_scalar_specific.h:973-1265"]}
{"id": "C103", "title": "XML output of fields is the same document on every machine; XML input of numbers, complex numbers, seeds and characters gives back what was written", "statement": "Writing a lattice field to an XML writer gives a well-formed document with exactly one element for every site in lexicographic order, with the right coordinates and value, whatever the number of nodes, the layout, the interleaving of the nodes and the library (one node, many nodes, vectors); the other nodes write nothing and no node waits forever; different fields have different documents. A number, complex number, seed or character written to XML is read back as it was, and a document with parts missing is an error.", "quantifier": "all lattices, layouts, numbers of nodes, networks, executions, fields of any type built from complex numbers, vectors, matrices and seeds; all values; all documents", "why_tests_cant": "a race or a stale buffer shows for particular interleavings only; which of the sites of a large field is misplaced no test looks up", "anchors": ["include/qdp_parscalar_specific.h:2494-2551", "include/qdp_scalar_specific.h:2055-2082", "include/qdp_scalarvec_specific.h:1283-1315", "include/qdp_reality.h:224-240", "include/qdp_reality.h:430-480", "include/qdp_primvector.h:205-224", "include/qdp_primspinvec.h:173-192", "include/qdp_primmatrix.h:194-216", "include/qdp_primseed.h:173-206", "include/qdp_xmlio.h:862-888", "lib/qdp_xmlio.cc:265-271", "lib/qdp_xmlio.cc:614-742", "lib/qdp_xmlio.cc:803-807", "lib/qdp_xmlio.cc:857"]}
{"id": "C104", "title": "Programs of lattice operations on many nodes with vectors do what they say", "statement": "In the library for many nodes with vector instructions, a program made of assignments, shifts and other maps, coordinates, masks, zeroing, peeks, pokes and sums gives on every node the result that the program says, with the fields it says spread over the nodes, whatever the number of nodes, the layout, the network and the interleaving; no node waits forever.", "quantifier": "all programs, all lattices whose pieces are a multiple of four sites, all layouts that are bijections, all networks, all executions, all values", "why_tests_cant": "interleavings and layouts are too many to run; a sum that takes in sites outside the subset is wrong only where the subset ends inside a vector", "anchors": ["include/qdp_parscalarvec_specific.h:118-200", "include/qdp_parscalarvec_specific.h:207-235", "include/qdp_parscalarvec_specific.h:266-391", "include/qdp_parscalarvec_specific.h:464-514", "include/qdp_parscalarvec_specific.h:828-895", "include/qdp_parscalarvec_specific.h:993-1270", "lib/qdp_parscalarvec_specific.cc:28-253", "lib/qdp_scalarvecsite_specific.cc:18-110", "lib/qdp_random.cc:54-165", "lib/qdp_util.cc:68-87"]}
{"id": "C105", "title": "Files, XML and archives of fields in the libraries with vectors are those of the other libraries", "statement": "In the libraries with vector instructions the binary output of a field or a site writes the bytes that the other libraries write, the input gives the field back on any machine, the XML output gives the one document of C103, and computeChecksum, writeArchiv and readArchiv give the checksum, write the file and read the file of C45, on one node and on many; every execution ends.", "quantifier": "all fields, all lattices whose pieces are a multiple of the inner length, all layouts that are bijections, all machines, byte orders, networks and executions, all contents of the buffers", "why_tests_cant": "interleavings and layouts are too many to run; reading beyond the end of an array on the stack need not show in a test that ignores the checksum", "anchors": ["include/qdp_parscalarvec_specific.h:1609-1833", "lib/qdp_parscalarvec_specific.cc:366-616", "lib/qdp_scalarvec_specific.cc:46-303"]}
{"id": "C106", "title": "Layout::create accepts a lattice exactly when it can lay it out", "statement": "For every lattice size, machine and ordering of the sites Layout::create either stops the program with a message, or returns with a layout in which every site of the lattice has exactly one node and place (C01, C02) and the colours are separate; and it does not stop for a lattice that can be laid out.", "quantifier": "all extents and numbers of directions, all orderings, all machines and numberings of the nodes, with and without the debugging tests", "why_tests_cant": "lattice sizes and machine shapes are infinitely many; the bad ones are refused or accepted by divisibility conditions that a test would have to hit", "anchors": ["lib/qdp_scalar_layout.cc:186-271", "lib/qdp_parscalar_layout.cc:237-387", "lib/qdp_parscalarvec_layout.cc:190-331"]}
{"id": "C107", "title": "The library can be started and ended in any order of calls", "statement": "Whatever the order in which a program calls QDP_initialize, QDP_finalize, Layout::create, output, reductions and statements: calls between QDP_initialize and QDP_finalize work, as often as the pair is repeated; all other calls stop the program with a message.", "quantifier": "all finite sequences of calls, all four libraries, with and without profiling", "why_tests_cant": "the sequences are infinitely many, and the failures (null streams, memory freed twice) may look like success", "anchors": ["lib/qdp_scalar_init.cc:26-167", "lib/qdp_parscalar_init.cc:39-362", "lib/qdp_scalarvec_init.cc:18-93", "lib/qdp_parscalarvec_init.cc:18-229", "lib/qdp_profile.cc:90-222", "lib/qdp_stdio.cc:126-190"]}
{"id": "C108", "title": "Arithmetic on multi1d is element by element, and norm2 is the sum of squares", "statement": "For arrays a, b and a scalar s: a+b, a-b, a*b, a/b, a+s, s*a, s/a and so on hold at every place the result of the operation on the elements at that place, with the operands in the order written; arrays of different sizes are refused; sqrt ... atan are applied to every element; concat is the one array followed by the other; norm2 is the sum of the squared norms, 0 for an empty array.", "quantifier": "all element types and operations (also ones that can fail), all sizes, null and empty arrays", "why_tests_cant": "tests use numbers, for which a[i]*s and s*a[i] agree, and arrays that are not empty", "anchors": ["include/qdp_multi.h:24-53", "include/qdp_multi.h:76-222", "include/qdp_multi.h:291-305", "include/qdp_multi.h:378-636"]}
{"id": "C109", "title": "The records of QIO files state the numbers of spins and colours of the field", "statement": "The record information of every field written with QDPFileWriter states the number of spin components and of colours of its type.", "quantifier": "all field types, all orders in which the C++ implementation may initialise static members of templates", "why_tests_cant": "the order of initialisation is fixed for one compiler and one program; a test sees one order", "anchors": ["include/qdp_qdpio.h:153-306", "include/qdp_qdpio.h:1074", "include/qdp_qdpio.h:1129", "include/qdp_qdpio.h:1480"]}
{"id": "C110", "title": "QDPIO::cin, cout and cerr on many nodes behave as the streams of one process", "statement": "A program that prints and reads through QDPIO::cout, cerr, cin on many nodes prints everything once, obtains on every node the values one process alone would obtain, agrees on fail(), and never waits forever; the precision set by the user is kept.", "quantifier": "all programs of stream operations, all behaviours of the C++ streams, all numbers of nodes, all old values of variables, all interleavings", "why_tests_cant": "interleavings and contents of uninitialised variables on other nodes cannot be enumerated", "anchors": ["lib/qdp_stdio.cc:28-277", "include/qdp_stdio.h:32-175", "lib/qdp_parscalar_specific.cc:250-288"]}
{"id": "C111", "title": "Sums, norms and inner products of integer fields are exact on every machine", "statement": "sum, norm2 and innerProduct of LatticeInteger fields return the sum over the sites as an integer, the same on every machine and with any number of threads.", "quantifier": "all fields, all machines, all distributions over threads and nodes, all orders of the additions", "why_tests_cant": "overflow needs large lattices or large values, and whether it happens depends on the machine", "anchors": ["include/qdp_simpleword.h:357-380", "include/qdp_simpleword.h:494-531", "include/qdp_scalar_specific.h:533-620", "include/qdp_parscalar_specific.h:70-75", "include/qdp_parscalar_specific.h:724-818"]}
{"id": "C112", "title": "Sums, norms and inner products of floating-point fields are accurate to the precision of their type, on every machine", "statement": "sum, norm2 and innerProduct of floating-point fields return double-precision results that differ from the exact sums by rounding only: bounded by the number of additions, the same on all machines to that accuracy, finite when the result is, exact for integers, norm2 not negative and zero for the zero field only.", "quantifier": "all fields of float or double, all machines, all distributions over threads and nodes, all orders of the additions", "why_tests_cant": "rounding depends on the order of additions, which depends on the machine and on the scheduling of threads; a test compares with a tolerance for a few fields", "anchors": ["include/qdp_simpleword.h:408-480", "include/qdp_simpleword.h:539-620", "include/qdp_reality.h:1635-1677", "include/qdp_reality.h:2385-2430", "include/qdp_primvector.h:887-950", "include/qdp_scalar_specific.h:533-620", "include/qdp_parscalar_specific.h:724-818"]}
{"id": "C113", "title": "The profile of a program shows every statement once, under its function, with its number and time", "statement": "printProfile shows every statement executed at positive level once, under the function that executed it, with the number and total time of its executions; entering and leaving functions restores the level; the profile never disturbs the program.", "quantifier": "all programs: all sequences of entering and leaving functions, changes of level and statements, all clock times", "why_tests_cant": "the lists are built from static variables of template instances in the order of their first executions, which depends on the whole history; the program crashes only for particular sequences", "anchors": ["lib/qdp_profile.cc:60-225", "include/qdp_profile.h:54-160", "include/qdp_scalar_specific.h:158-185", "examples/examples.h:15-16"]}
{"id": "C114", "title": "A database of keys and values behaves on many nodes as it does in one process", "statement": "A program that uses BinaryStoreDB on any number of nodes obtains on every node what one process obtains from the library: values written and read, failures noticed by all nodes, no node waiting forever.", "quantifier": "all programs of calls depending on earlier results, all behaviours of the library, all numbers of nodes, all interleavings", "why_tests_cant": "what a node does depends on what other nodes send; a test runs one interleaving on one machine, usually of one node", "anchors": ["include/qdp_db_imp.h:37-455", "lib/qdp_parscalar_specific.cc:250-288"]}
{"id": "C115", "title": "What is written to a file object is in the file that was opened", "statement": "A program that opens, writes, reads, closes and opens again a file object finds in each file what it wrote since opening it, reads from the file opened last, and is told when something is lost.", "quantifier": "all histories of calls, right or wrong, all files, all data", "why_tests_cant": "the loss needs an open of an object that is still open, which no test does, and no test looks at a file after a wrong history", "anchors": ["lib/qdp_io.cc:222-263", "lib/qdp_io.cc:470-518", "lib/qdp_io.cc:715-731", "lib/qdp_io.cc:966-1007", "lib/qdp_io.cc:1159-1180", "lib/qdp_io.cc:1395-1447", "lib/qdp_xmlio.cc:1319-1391", "lib/qdp_qdpio.cc:106-190", "lib/qdp_qdpio.cc:294-496"]}
{"id": "C116", "title": "Opening an HDF5 file for writing gives every node the same file", "statement": "HDF5Writer::open creates the file, truncates it, opens it with its contents, or ends with an error on all nodes, as the mode says and whatever was there before, on any number of nodes and however they are scheduled.", "quantifier": "all numbers of nodes, all files, all modes, all interleavings of the nodes", "why_tests_cant": "the outcome depends on the relative speeds of the nodes; a test sees one schedule", "anchors": ["lib/qdp_hdf5.cc:1522-1595", "include/qdp_hdf5.h:31"]}
{"id": "C117", "title": "A subset shows the sites it was made of for as long as it is used", "statement": "A Subset taken from a Set shows the order, bounds, site table, colour and colouring that Set::make computed, whatever is done afterwards with that set, with copies of it and with other sets; subsets of a copy of a set depend on the copy only.", "quantifier": "all histories of making, assigning, copying and destroying sets and taking and copying subsets, all sets", "why_tests_cant": "freed memory usually still holds the old table, so a test passes; the sets of the library live as long as the program", "anchors": ["include/qdp_subset.h:36-127", "lib/qdp_subset.cc:103-171", "lib/qdp_scalarsite_specific.cc:56-189", "include/qdp_multi.h:44-73", "include/qdp_multi.h:256-268"]}
{"id": "C118", "title": "The default sets colour the lattice as red-black algorithms need", "statement": "After initialisation all holds every site, even and odd (rb) the sites of even and odd coordinate sum, rb3 those of even and odd sum of the first three coordinates, mcb the 2^(Nd+1) cells; a step along any direction changes the rb colour; no two sites one or two steps apart share a colour of mcb; on the checkerboard layouts these subsets are contiguous.", "quantifier": "all good geometries of three or more dimensions, all nodes, all sites, all directions and signs; all extents for the layouts", "why_tests_cant": "a test uses one lattice, usually of extents that are powers of two, where every statement holds", "anchors": ["lib/qdp_subset.cc:8-125", "lib/qdp_scalarsite_specific.cc:56-189", "lib/qdp_scalar_layout.cc:440-520", "lib/qdp_parscalar_layout.cc:540-640"]}
{"id": "C119", "title": "Binary buffers in memory hold what was written and give it back", "statement": "A BinaryBufferWriter holds exactly what was written since it was opened or cleared, with the checksum of those bytes; a BinaryBufferReader gives the bytes of the string opened last piece by piece; opening, rewinding or seeking makes a reader usable again after a read that wanted too much.", "quantifier": "all histories of open, write, clear of a writer and of open, read, seek, rewind, clear of a reader, all contents", "why_tests_cant": "the stuck state and the leftovers show only in histories that reuse an object", "anchors": ["lib/qdp_io.cc:551-607", "lib/qdp_io.cc:715-731", "lib/qdp_io.cc:915-956", "lib/qdp_io.cc:1159-1195", "lib/qdp_io.cc:1346-1390", "include/qdp_io.h:892-940", "include/qdp_io.h:1375-1425", "lib/qdp_qdpio.cc:243-290"]}
{"id": "C120", "title": "The SSE spin projections and reconstructions compute what the generic ones do, for any number of sites", "statement": "The 24 functions inlineSpinProjDir*, inlineSpinReconDir*, inlineAddSpinReconDir* of the SSE headers, called for n_vec sites, store for every site the projection onto two components, the reconstruction, or the sum with it, so that projecting and reconstructing multiplies by 1 ± gamma; they write nothing else, read nothing outside the arrays, and the functions given to the threads cover all sites.", "quantifier": "all directions and signs, all spinors over every commutative ring, all numbers of sites, all numbers of threads", "why_tests_cant": "the loop is software-pipelined: loads for the next site overlap stores of this one; an error of one lane of one direction, or at the first or last site only, needs its own test; the shares of threads depend on the machine", "anchors": ["include/scalarsite_sse/sse_spin_proj_inlines.h", "include/scalarsite_sse/sse_spin_recon_inlines.h", "include/scalarsite_sse/qdp_sse_spin_evaluates_wrapper.h:15-65", "include/scalarsite_sse/qdp_sse_spin_evaluates.h:26-60", "include/scalarsite_generic/qdp_generic_spin_project_evaluates_wrapper.h:15-33"]}
{"id": "C121", "title": "Colour matrices in vectors of four sites are multiplied site by site", "statement": "In the libraries with vectors built for SSE, the product of two fields of colour matrices written in assembler gives every site of the subset the product of the matrices of that site and touches nothing else, also when the destination is an operand; the operators of four complex numbers and the scalar times a matrix are those of every site.", "quantifier": "all matrices over every commutative ring, all contents of registers, all lattice sizes, all subsets, all ways the three fields coincide", "why_tests_cant": "the value of a site depends on 36 floats of its lane; an aliased destination, a subset beginning inside a vector and a subset with a table each need their own test; the code is only built for one configuration", "anchors": ["include/scalarvecsite_sse/ssevec_mult_nn.h:7-178", "include/scalarvecsite_sse/qdp_scalarvecsite_sse_linalg.h:183-296", "include/scalarvecsite_sse/qdp_scalarvecsite_sse_blas.h:25-60", "lib/qdp_scalarvecsite_sse.cc:16-58"]}
{"id": "C122", "title": "Products of links with projected spinors, evaluated in one pass, are those of the separate functions", "statement": "`h = adj(u) * spinProjectDir(psi)`, `psi = spinReconstructDir(u * h)` and `psi += spinReconstructDir(u * h)`, rewritten to one node and evaluated site by site, assign on every site of the subset what projection, product and reconstruction give one after the other, for the direction and sign that were written, and touch nothing else; both together give one direction of the hopping term, w adj(u) (1 +- gamma_mu) psi.", "quantifier": "all links and spinors over every commutative ring, eight directions and signs, = and +=, all subsets with or without a table, all numbers of threads, all interleavings, any former contents of the temporaries", "why_tests_cant": "forty-eight places name one of 24 functions by hand; a wrong direction in the branch with a table shows only for subsets without an ordered representation; a temporary shared by threads shows only under some schedules", "anchors": ["include/scalarsite_generic/generic_fused_spin_proj.h", "include/scalarsite_generic/generic_fused_spin_recon.h", "include/scalarsite_generic/qdp_generic_fused_spin_proj_evaluates.h", "include/scalarsite_generic/qdp_generic_fused_spin_proj_evaluates_wrapper.h", "include/scalarsite_generic/qdp_generic_fused_spin_recon_evaluates.h", "include/scalarsite_generic/qdp_generic_fused_spin_recon_evaluates_wrapper.h"]}
{"id": "C123", "title": "The SSE kernels with chiral projections compute what the generic ones do, and stay inside the fields", "statement": "Each of the eighteen SSE functions with chiral projections leaves the numbers that the generic function of the same name leaves when called with the same arguments, for any number of sites, in place or not, without reading or writing outside the fields; the thirty-two specialisations of evaluate that call them or the generic gamma_5 functions assign, on every site of the subset and nowhere else, what the statement says, as the general evaluate and the generic specialisations do.", "quantifier": "all numbers of sites, all scalars and fields over every field of numbers, the same field at several places, all subsets with or without a table", "why_tests_cant": "a wrong offset among the eighteen times six vector statements shows in four numbers of one chirality; wrong operands in the branch with a table show only for subsets without an ordered representation; reads behind the end of a field usually return something", "anchors": ["include/scalarsite_sse/qdp_scalarsite_sse_blas_g5.h", "include/scalarsite_sse/sse_blas_vaxpy3_g5.h", "include/scalarsite_sse/sse_blas_vaypx3_g5.h", "include/scalarsite_sse/sse_blas_vadd3_g5.h", "include/scalarsite_sse/sse_blas_vscal3_g5.h", "include/scalarsite_sse/sse_blas_vaxpby3_g5.h"]}
{"id": "C124", "title": "Products of links with matrices, vectors and fermions of a site with SSE are those of the general operators", "statement": "Each of the twenty-two operators on single-precision objects of a site that are specialised for SSE (products of colour matrices plain and adjoint, products of a colour matrix with colour vectors, staggered, half and Dirac fermions, sums of colour vectors) returns what the general operator returns and stays inside the objects, and the statement d = l * r for links and half fermions assigns this product on the sites of the subset only, provided the routines of the external library compute what their names say.", "quantifier": "all operands over every commutative ring, all previous contents of the result, all subsets with or without a table", "why_tests_cant": "a wrong offset or a routine for the wrong one of the four kinds of adjoint shows for one combination of types only; the routines are in another library; subsets without ordered representation take a separate branch", "anchors": ["include/scalarsite_sse/qdp_scalarsite_sse_linalg.h:50-645", "lib/scalarsite_sse/qdp_scalarsite_sse.cc:1108-1157"]}
{"id": "C125", "title": "A binary buffer written to a QIO file as a record is read back on any number of nodes", "statement": "QDPFileWriter::write of a BinaryBufferWriter makes a record with exactly the bytes of the buffer, whichever node QIO asks for the data, and QDPFileReader::read into a BinaryBufferReader gives them back, on any number of nodes and in any byte order, ready to be read from the beginning with a checksum of its own; records of other kinds are refused.", "quantifier": "all contents of buffers below 2^31 bytes, all histories of writes and reads, all numbers of nodes, all choices of the I/O node, both byte orders, all readers", "why_tests_cant": "the buffer exists on the primary node only, and which node QIO asks depends on the machine; what becomes of a reader that was used before shows only in programs that read more than one record", "anchors": ["lib/qdp_qdpio.cc:249-290", "lib/qdp_qdpio.cc:528-575", "lib/qdp_io.cc:915-956", "lib/qdp_io.cc:1346-1390", "include/qdp_qdpio.h:834-841", "include/qdp_qdpio.h:1051-1058"]}
{"id": "C126", "title": "Arrays with indices from one: every index in range is an element of its own, an index out of range is not", "statement": "In Array1dO to Array5dO the indices from one to the sizes reach distinct elements inside the array and all of them, the same as the underlying array with indices less one; other indices are refused; size() is the range of an index; minus, multiplication and division by a scalar act element by element; resizing keeps what remains.", "quantifier": "all ranks from 1 to 5, all sizes, all integer indices, all contents", "why_tests_cant": "a wrong stride shows only for arrays whose sizes differ, and an index out of range of a higher rank reads another element without a sign", "anchors": ["include/qdp_arrays.h:16-291", "include/qdp_multi.h:639-726"]}
{"id": "C127", "title": "Components of spin and colour are taken out of a field and put into it without touching others", "statement": "peekColor, peekSpin, pokeColor and pokeSpin, with one index or two, on every nest of scalars, vectors and matrices they accept: a peek returns the numbers with the given indices; a poke changes these to the source, converted, and no others; what is put in is found there, putting back changes nothing, the components determine the object, spin and colour can be taken out in either order; a field is poked at every site with a source computed from the field as it was; indices out of range are refused.", "quantifier": "all types, all sizes, all integer indices, all values and conversions, all orders of the sites", "why_tests_cant": "types nest without bound and each overload is a template; a poke that touches another component shows only when that component is looked at; an index out of range of a matrix reads a valid number", "anchors": ["include/qdp_newops.h:117-620", "include/qdp_primvector.h:675-774", "include/qdp_primmatrix.h:1353-1491", "include/qdp_primscalar.h:1031-1102", "include/qdp_primspinvec.h:558-645", "include/qdp_primspinvec.h:1117-1140", "include/qdp_primcolorvec.h:223-245", "include/qdp_primcolormat.h:433-455", "include/qdp_primspinmat.h:552-574"]}
{"id": "C128", "title": "Comparisons, logical operators and where on fields do at each site what C++ does with the numbers", "statement": "An expression of integer and boolean fields with arithmetic, comparisons, &&, ||, ! and where has at each site the value that C++ gives to the numbers of the site with ?:, && and ||; an assignment gives it to every site of the subset in any order, the destination possibly among the operands, and leaves all else. where and copymask of objects with spin and colour take one operand as a whole.", "quantifier": "all expressions, all values, all orders of the sites, all C++ numbers, all types of a site", "why_tests_cant": "tests have masks and operands that are harmless where the mask is false; that the operand not chosen is evaluated, and that a number is converted to the type of the mask, shows only with others", "anchors": ["include/PETE/ForEach.h:91-142", "include/PETE/Combiners.h:225-254", "include/QDPOperators.h:4569-4663", "include/qdp_reality.h:941-1111", "include/qdp_reality.h:1521-1525", "include/qdp_reality.h:1706-1710", "include/qdp_reality.h:2339-2516", "include/qdp_primscalar.h:463-642", "include/qdp_primscalar.h:1379-1382", "include/qdp_primscalar.h:1534-1537", "include/qdp_primvector.h:788-792", "include/qdp_primvector.h:1012-1021", "include/qdp_primmatrix.h:1508-1513", "include/qdp_primmatrix.h:1781-1792", "include/qdp_primspinvec.h:659-663", "include/qdp_primspinvec.h:755-764", "include/qdp_simpleword.h:81-103", "include/qdp_simpleword.h:341-356"]}
{"id": "C129", "title": "A singleton is one object, made at its first use and destroyed at the end after all that rely on it", "statement": "For every program that calls Instance() of any number of singletons whose constructors and destructors call it too: each type has one object, made at the first use after those its constructor uses; at the end of the program each is destroyed once, in the opposite order, so that what a constructor used outlives the object; with NoDestroy, the policy of the allocator, it exists for ever. This should hold with every policy.", "quantifier": "all programs, all types and policies, all dependencies of constructors on others, all lengths", "why_tests_cant": "the order of construction and destruction depends on the order of first uses in the whole program; the end of the program is not seen by unit tests", "anchors": ["include/qdp_singleton.h:60-166", "include/qdp_singleton.h:168-242", "include/qdp_singleton.h:244-348", "include/qdp_singleton.h:350-457", "include/qdp_allocator.h:70-90"]}
{"id": "C130", "title": "Bit operations, shifts and compound assignments of integer and boolean fields", "statement": "At every site & | ^ << >> of integer and boolean fields give what C++ gives for the words: bits combined one by one in two's complement, x·2^k but for the bits that leave the word, the floor of x/2^k; counts outside of 0..31 are undefined. An expression of any size has the value of the same expression in C++. d op= t on a subset does what d = d op t does, also where t reads d, for all ten operators.", "quantifier": "all expressions, all words, all fields, all subsets, all operators", "why_tests_cant": "2^64 pairs of words per operator and expressions of any size; the types of the results are computed by templates", "anchors": ["include/qdp_reality.h:66-160", "include/qdp_reality.h:941-1003", "include/qdp_primscalar.h:67-156", "include/qdp_primscalar.h:463-540", "include/qdp_qdptype.h:94-371", "include/qdp_qdpsubtype.h:128-486", "include/PETE/OperatorTags.h:558-748", "include/PETE/TypeComputations.h:79-330"]}
{"id": "C131", "title": "Assignments of vectors and scalars done by the library Bagel", "statement": "In a build with Bagel each of the 60 specialisations of evaluate that hand d op= expression over to a routine of the library (axpy, scaling, sums, chiral projections, gamma_5, with real scalars) assigns at every site of the subset the value of the statement computed from the old fields and changes nothing else: the right operand stands at each place, the sign of the scalar is right, the count covers the sites of the subset and no others, with and without ordered representation, also where the destination is an operand.", "quantifier": "all specialisations, all subsets of all sets of sites, all fields and scalars, all ways for operands to coincide", "why_tests_cant": "60 entries times two branches, chosen by the type of the expression; the library is seldom available; an operand in the wrong place shows only for particular values and aliases", "anchors": ["include/scalarsite_bagel_qdp/qdp_scalarsite_bagel_qdp_blas.h:31-1636", "include/scalarsite_bagel_qdp/qdp_scalarsite_bagel_qdp_blas_g5.h:32-2161"]}
{"id": "C132", "title": "Norms and inner products done by the library Bagel", "statement": "In a build with Bagel norm2, innerProduct and innerProductReal of fields of Dirac fermions, and of arrays of them, on a subset or on all sites, are the sums over all nodes, the sites of the subset, spin and colour of |v|^2, of v1* v2 and of its real part, with and without ordered representation: no site is counted twice or left out, the first factor is the conjugated one.", "quantifier": "all numbers of nodes, all subsets of all sets of sites, all fields, all lengths of arrays", "why_tests_cant": "The branches differ by subset; the library is seldom available; a sum over too many sites shows only if the numbers there are not zero", "anchors": ["include/scalarsite_bagel_qdp/qdp_scalarsite_bagel_qdp_blas.h:1638-2112"]}
{"id": "C133", "title": "Assignments of colour matrices done by the library Bagel", "statement": "In a build with Bagel the assignments =, += and -= of l*r, adj(l)*r, l*adj(r), adj(l)*adj(r), and += and -= of (a*l)*r, a*r and r, for fields of colour matrices on a subset give at every site of the subset what the general evaluate gives, whichever fields stand in the statement, with and without ordered representation, and change nothing else.", "quantifier": "all eighteen specialisations, all subsets of all sets of sites, all fields, all real numbers a", "why_tests_cant": "The specialisation is chosen by the form of the expression and the branch by the subset; the library is seldom available; a sign or an operand exchanged in one of eighteen similar functions shows only in that statement", "anchors": ["include/scalarsite_bagel_qdp/qdp_scalarsite_bagel_qdp_linalg.h:32-1220"]}
