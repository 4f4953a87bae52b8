# QDP++ formal model: design

Source of truth: `/repo` (usqcd-software/qdpxx, pinned commit), read as text; nothing there is built or run.
The model is Lean 4 (core + single Mathlib modules). Each model definition cites file and lines in `/repo`.
`X.lean` = model of the code and helper lemmas, `XSpec.lean`/section "Spec" = independent specification,
`XProps.lean` = property theorems plus, beside each, a concrete witness (`example`) meeting its hypotheses.

## Trusted base

* Lean 4.33.0 kernel; axioms at most `propext`, `Classical.choice`, `Quot.sound`. No own axioms, no `sorry`,
  no `native_decide`/`bv_decide`. (`decide`/`decide +kernel` only for finite tables that *are* the quantifier,
  e.g. the 256-entry CRC table, or for refuting a false claim by a concrete witness.)
* Faithfulness of the hand translation C++ -> Lean (cited line by line). Machine integers: where overflow can
  matter the theorem carries the bound as a hypothesis or a separate theorem shows that intermediates fit.
* External code is not modelled, only assumed through explicit hypotheses/structures: QMP node<->grid maps
  (assumed mutually inverse, as `Layout::create` checks at start-up), message passing (reliable, in order),
  `std::map`, `std::fstream` (byte array + one position), `malloc`/TBB pool (returns fresh block or null), clock.
* Floating point: algebraic statements are over exact rings; statements about bit identity use an arbitrary
  binary operation without laws; only `seedToFloat` has a rounding model.

Undefined behaviour and aborts are distinct outcomes (`Outcome`/`Except`/`Option`), never totalised away.

## Plan per property

| id | module | what is modelled | how proved |
|----|--------|------------------|-----------|
| C01 | Layout | `crtesn`, `local_site` (both variants), scalar siteCoords/linearSiteIndex for 4 orderings, any Nd | mixed-radix induction over dimensions |
| C02 | ParLayout | parscalar siteCoords/linearSiteIndex/nodeNumber over abstract inverse node map | from C01 + div/mod of subgrid |
| C03 | Layout/ParLayout | parity of coords by index | parity arithmetic |
| C04, C05 | Subset | `Set::make` loops | induction over site loop |
| C06-C08 | Shift | `NearestNeighborMapFunc`, scalar `Map::make`, FnMap evaluation | modular arithmetic on top of C01 |
| C09, C10 | ParMap | parscalar `Map::make` tables and `operator()` as a per-node program + message exchange | order-of-enumeration lemma (filter/map), bijection counting |
| C11 | Seed | `PSeed` limbs as Nat with 32-bit bound theorem | div/mod algebra |
| C12-C15 | Rng | `initRNG` loops, `sranf`, lattice random for scalar and parscalar, thread schedule | monoid power lemmas; state-machine induction |
| C16 | Seed | `seedToFloat` exact over rationals; rounded to 24 bits | algebra; witness |
| C17, C18 | Rannyu | `__rand`, `setrn`, `savern`, `inited` | negation witnesses + `_partial` |
| C19-C21 | Crc | table, byte loop with DO8 unroll; spec: bit-serial LFSR | induction; linearity + invertibility of the register step |
| C22 | ByteOrder | swaps on lists of bytes | induction |
| C23-C26 | BinIO | stream writer/reader with checksum, host endianness parameter; codec combinators for containers | round trip lemmas, append lemmas |
| C27-C30 | LatticeIO | strip loops, routing, subset/site/time-slice versions | C01/C02 + list concatenation |
| C31 | MapObj | map object operations | refinement to finite map |
| C32-C36 | MapDisk (model), MapDiskProps, MapDiskSim, MapDiskThm, MapDiskCrash, MapDiskMore | file as bytes + position; insert/get/open/close | refinement invariant under side conditions (`_partial`) + refuting witnesses |
| C37 | MapMulti | `MapObjectDiskMultiple`: list of pointers to disk maps, deleted ones marked | refinement to the left-biased union, per call |
| C38-C41 | Multi | index arithmetic, assignment on heap, comparisons | arithmetic; witnesses for false parts |
| C42, C43, C57 | SpinTables, Spin, SpinInline, SpinDispatch | tables extracted mechanically from the headers by tools/gen_spin.py (each function body must match its family's pattern as a whole); components: any additive group with a lawful `timesI` | tables compared with products of Gaussian-integer matrices by kernel evaluation over the finite index set, then summation lemmas for all spinors; induction over the sites for the inlined functions |
| C44, C45 | Archive, ArchiveProps, ArchiveThm | binary part of gauge archives on one and many nodes: rows, words, checksum, reconstruction of the third row; conversion of numbers abstract | list and permutation lemmas on top of C27/C28; polynomial identities over any commutative ring with conjugation as the code writes it |
| C46 | ArchiveHdr, ArchiveHdrThm, ArchiveHdrBad | header text as bytes, `sscanf` with literals/blank/%d/%lx/%lf, tokens, labels; printing of doubles abstract | scan-of-print lemmas for all numbers, induction over the lines; refutations for all headers |
| C47, C48 | Dispatch, Evaluate | thread ranges with `int` products; threads that alternate between evaluating the right hand side at a site and storing it, in any interleaving; expressions with shifts (lazy in the single-node code, temporaries in the many-node code) | arithmetic of division; invariant over interleavings; witnesses of the shift hazard for every ring length |
| C49, C50 | GlobalSum, Sums | ring all-gather over a grid of nodes, arbitrary addition; `sum`/`sumMulti` with arbitrary distribution of iterations and order of critical sections | invariant over ring steps; permutation invariance of finite sums; bijection of C02 for the sum over nodes |
| C58, C59 | Extremes | loops of globalMax/Min over an abstract comparison; the four classification functions per type constructor; the bool reduction on bytes | induction over sites; closure of meaning under type constructors; refutations |
| C51, C52 | Alloc, AllocPool | both allocators as state machines on 64-bit addresses; `new` and the TBB pool answer with any free place, null or an exception | entry-by-entry invariant over all histories |
| C53 | StopWatch | state machine over clock readings, which may fail or go backwards | invariant over histories against a sum over intervals |
| C54 | Util | `uniquify_list` | induction; UB outcome for empty |
| C55 | BinIO | stream with one (file) or two (string) positions | witness of failure for buffers, proof for files |
| C60, C61 | Poly, Kernel, KernelTables, Interleave, Blas, BlasTables, BlasChecks, BlasProps | the 38 unrolled kernels and the 83 specialisations of `evaluate` that call them, extracted from the headers by tools/gen_kernels.py and tools/gen_entries.py; threads that interleave statement by statement | each kernel body is run once on polynomials in normal form (by Lean's kernel); a simulation lemma turns this into the result of the loop for every number of sites, all numbers and all alias patterns; threads on disjoint cells commute |
| C62-C64 | SiteType, SiteLaws, SiteFlat | the type constructors RScalar, RComplex, PScalar, PVector, PMatrix and the overloads of the site operators on them, as recursive functions over the type | induction over the type; specification: one big matrix indexed by the product of all indices, with Mathlib's finite sums |
| C65 | Contract | the contraction functions term by term | specification by sums over the totally antisymmetric symbol and `Matrix.det`; polynomial identities |
| C66 | OptOps | which overload of qdp_optops.h is chosen for which tree; values of trees | induction over the program expression, with C62 for each fused node |
| C67, C68 | SiteLoop, Su3, Su3Tables, Su3Thm, Su3Eval | the unrolled products of 3 by 3 matrices and vectors statement by statement, extracted by tools/gen_su3.py; threads that run a program of statements per site (SiteLoop) | the word each statement writes is followed through the macro; calls on disjoint spin components are independent; sites are independent, so every interleaving gives the sequential result |
| C69 | Reduce | the reduction kernels and norm2/innerProduct/innerProductReal for fermions, with the omp reduction as a state machine (private accumulators, each iteration taken by some thread, combined in any order); outcomes are sets | invariant: shared + private sums + sum of the remaining iterations is constant; C50 carries the sum over nodes |
| C70 | XmlNum | integer arrays as text in XML; `>>` of an istringstream with eofbit and failbit; both passes of readArrayPrimitive | the texts accepted are characterised as a language defined without the reader (`Begins`, then blank, lone sign or number out of range) |
| C71 | XmlTree | the read and write templates for containers as a function of the type; elements are a tree (the XPath library is not in the repository); keys of maps restricted to integers | induction on the type; `std::map::insert` as insertion into a sorted list |
| C72 | XmlArray | XMLArrayWriter as a state machine over call sequences; tags as tokens; base class stack of tags | invariant with four states (no array, tag written, between elements, inside an element) carrying the document written so far |
| C73 | XmlNodes | XMLReader on many nodes; programs as trees of queries with handlers; broadcasts as a stream of messages of given sizes | induction on the program; general law for the first query that fails |
| C74 | IoNode | io_node, setIONodeGrid on any machine whose node numbering is a bijection; grid of natural numbers | list induction over directions; card of the image of the machine under the corner map by a bijection with the block coordinates |
| C75 | QioField | read and write of fields, arrays, scalars through QIO; memories as bytes per node; QIO (not in the repository) by its interface: per-site bytes in file order, get/put call-backs in any order, check of the byte count; word conversion a parameter | invariant over the sites read; cells of the site memories as in C27; any permutation of the sites |
| C76 | CmdLine, CmdLineLibs | the loops over argv of QDP_initialize of all four libraries (CmdLineLibs; with "-h" and `%f`, `%d:%d` scanned), of the parscalar library alone in CmdLine; sscanf("%d") as in C70; "%f" and "%d:%d" parameters | grammar of items; soundness by induction on items, completeness by induction on the loop |
| C77 | Hdf5, Hdf5Props, Hdf5More | reorder map, CvtToHost/CvtToLayout, writeLattice/readLattice with the halving loops and the local transposition, generic and typed readers and writers; HDF5 by its interface (blocks of arrays in row-major order, zero fill, byte order) | places of blocks in row-major order; invariants of the loops over pieces, nodes and sites; site by site equality through the data set |
| C78 | Hdf5Qlua | writeQlua, readQlua of gauge fields and propagators on the model of C77; the attribute `.kind` left out | composition of the reading and writing theorems of C77; reversal of coordinates |
| C79 | Hdf5Path, Hdf5PathProps | splitting of paths, pwd, parentDir, cd, push, pop, mkdir, objectExists over a tree of groups and data sets; handles by numbers; HDF5 by its interface | tokens = parts between slashes by induction on the string; invariant of the tree and the current group; loops of pop by the depth, of push by the names left |
| C80 | Hdf5Val, Hdf5ValProps | rd, wt, rdAtt, wtAtt of single data, arrays and matrices, strings, complex numbers, OScalar readers and writers on the tree of C79; HDF5 types by class, size and sign | effect of each write on the tree and its attributes; elements through words of the file; splitting of bytes into words |
| C81 | Sse, SseTables (generated by tools/gen_sse.py), SseProps, SseThm, SseInPlace | the SSE2/SSE3 kernels for double-precision colour matrices, instruction by instruction on pairs of numbers; statements as threads over sites | the kernels are run once with polynomials for entries (kernel computation), which determines them over every commutative ring by a simulation; interleavings by SiteLoop; in-place statements on permutation matrices |
| C82 | SseReduce, SseReduceThm, SseReduceProps | the SSE kernels of norm2, innerProduct, innerProductReal round by round; threads with the static array of partial sums as state that outlives a call | induction over the rounds; the array after a call is computed and handed to the next; wrong histories proved for all fields |
| C83 | SseBlas, SseBlasTables (generated by tools/gen_sse_blas.py), SseBlasProps | the 56 specialisations of `evaluate` for Dirac fermions and real factors in builds with SSE: kernels of both precisions as sequences of loads, operations and stores on single numbers, two loops per kernel, choice of the kernel by comparing pointers | the checker of C60 extended to families of loops; soundness proved once for all tables, interleavings and aliases; the check itself is evaluated by the kernel |
| C84 | SseSingle, SseSingleTables (generated by tools/gen_sse_single.py), SseSingleProps | products and copies of single-precision colour matrices with SSE: call of the external routine (a parameter of the model), the 18 statements behind it in each branch, loops over groups of four numbers with the condition on addresses | check of the lists of statements by the kernel, soundness of the check and the loops by induction; the faulting subsets are characterised |
| C85 | Network, PeekPoke, PeekPokeProps | peekSite, sendToPrimaryNode, broadcast, pokeSite on every node as processes that exchange messages; programs as trees; QDP_extract, QDP_insert, copymask as loops with unchecked indices | steps of different nodes commute, so one execution that ends well decides all (`Network.all_executions`); that execution by induction on the program |
| C86 | Network, NetworkRounds, Spmd, SpmdProps | programs as trees; on every node Set::make, the loop of evaluate, latticeCoordinate, Map::make, Map::operator() with send, receive and wait, peekSite, pokeSite, the loop of sum and the global sum, as processes that exchange messages | one execution round by round (`exchange_all`, `bcast_all`, `reduce_all`), induction on the program, and `Network.all_executions`; the rounds by C04, C09, C50 and C85 |
| C87 | LatticeIONet, LatticeIONetProps | the loops of the I/O functions on every node: own buffers, `old_node`, clear-to-send, route, count of the subset sent as an `int`, stream of the primary node; DML_route_bytes (QIO) as a message | one execution strip by strip against `LatticeIO` (`write_step`, `read_step`, ...), induction on strips and calls, `Network.all_executions`; then C27-C30 |
| C88 | SubLat, SubLatProps | `OSubLattice` (`F`, `ownsMemory`, `s`), blocks of memory, every statement on it as a loop over memory; specification: a view of a field or a function on the sites of the subset | `RepB` (each variable with memory of its own has a block to itself, no other block live) kept by every statement; loops by `loop`; programs by induction; negations from `C88_scalar_first`, `foldO_ub`, `rep_own_unique` |
| C89 | Reality, RealityProps | words (int, float, double as reals) with the conversions of C++, `Promote`, `RScalar`/`RComplex` operators in the types of the code, expressions with C++ numbers, compound assignment on a memory; specification: complex numbers of Mathlib | per operator from the value lemma of one built-in operation (`bin_ok`); expressions by induction (`eval_ok`); existence of the value for floating point (`opV_total`); rounding is not modelled |
| C90 | Gauss, GaussProps, GaussMeasure | `gaussian(OLattice, Subset)` over the generator and threads of C14-C16, `fill_gaussian` of real and complex elements with an undefined logarithm of zero; specification: two elements of the sequence given by rank and element, `boxMuller`, Mathlib's `gaussianReal` | induction over the site loop for every order; positivity of the rounded deviate; change of variables to polar coordinates for the distribution |
| C91 | Reunit, ReunitProps, ReunitThm, ReunitN | all four cases of `reunit` at a site: U(1), SU(2), SU(3), Gram-Schmidt with LU determinant for Nc > 3, the deviation `sigmasq`; the three flags over all sites; specification: Mathlib's unitary group and determinant, QR factorization, Frobenius distance | induction over columns with the invariant that the columns done are orthonormal and span the same space; Crout LU invariant for the determinant; cross product for SU(3); witnesses for Nc >= 4 |
| C92 | Gauge, GaugeProps, GaugeThm | `MesPlq` statement by statement as a program of lattice operations (shift, assignment, sum) of the machine of C86, the normalization with `int` products; specification: plaquette as a product of four matrices at neighbouring sites, sums over sites, Mathlib's unitary group | running the program symbolically (only temporaries change), C86 for all machines; gauge invariance by commuting neighbours and cyclicity of the trace; bounds by entries of unitary matrices, equality case of the sum |
| C93 | Gauge, GaugeExp, GaugeRand | `rgauge`, `taproj`, `expm12` statement by statement as programs of lattice operations on the machine of C86, `reunit` (C91) as one statement; specification: Mathlib's unitary group, inner product Re tr(A^dag B), finite exponential series, transform of a gauge field | symbolic running; induction over the loop of the series and over directions; the series is invertible by a Bezout identity between the even part C(t) and t S(t), t = A^2, checked by ring in polynomials |
| C94 | Gauge, GaugePoly | `polylp` statement by statement as a program of lattice operations on the machine of C86; specification: product of links along a line of neighbours, sum over sites | induction over passes of the loop; periodicity of the neighbour map; cyclicity of the trace |
| C95 | Dslash, DslashProps, DslashThm | `dslash` (the compiled branch) and `dslash2` term by term, with projections, reconstructions, links and shifts as tables, as programs of lattice operations on the machine of C86, on the projection tables of C43; specification: gamma matrices written out over the complex numbers, matrices acting on spin and colour, neighbours on the torus | symbolic running by induction over the terms, C43_link for each hop; parity of neighbours; reindexing of sums over sites by the shift |
| C96 | FloatText, FloatTextNum, FloatTextRead, FloatTextArr, FloatTextThm | the writers with `precision(7)` and `precision(15)`: `%g` with rounding, exponent, fixed or scientific form, removal of zeros, inf and nan; `>>` of an istringstream for floating-point numbers: sign, digits, point, exponent, correctly rounded conversion, overflow, eofbit and failbit; both passes of the readers. Numbers are rationals of a binary format (bits, exponent range) with a sign. Specification: numbers of a format, P-digit decimals, nearest | scanning the printed text by cases of the form; best approximation on a grid; gaps of the format; induction over the array; the number of rounds by the length of the text |
| C97 | TextIO, TextIOThm | `<<` and `>>` of text readers and writers for strings, characters, integers and floating-point numbers; the state of the streams (rest, eofbit, failbit; content, position); open of buffers and files; broadcast to the nodes, uninitialised variables on the others; the order of the numbers in nested objects; seeds. Simplified: objects of several numbers on the primary node only. Specification: `Spaced`, `Plain`, `Got` | one extraction with white space in front and behind for each type; induction over the list of values; nodup and completeness of the entries; digits run together |
| C98 | Hadron, HadronProps, HadronCur, HadronThm | `mesons` and `FormFac` as programs of lattice operations: antiquark, traces, shifts, `latticeCoordinate`, phases, `sumMulti` by slices, the loops that place the sums with `int` arithmetic and C remainder, the grid of momenta with `crtesn`, the records written. Simplified: twopi is 2 pi, the statements of the loop for p.x are one, XML is a list of records. Specification: matrices indexed by spin and colour (Kronecker products), exp(ip.x), sums over slices; the Wilson operator of C95 | running the program statement by statement (C86), injectivity of the placement, mixed radix for the momenta, traces and unitarity, Cauchy-Schwarz term by term; the divergence as a difference of traces; summation over a slice with shifts as bijections |
| C99 | Baryon, BaryonProps, BaryonThm | `baryon` as a program of lattice operations: the spin matrices built with `Gamma`, `quarkContract13` (C65), traces over spin and colour, the switch over nine baryons with `b_prop` carried from one case to the next, `sumMulti`, placement with the sign of the boundary condition. The default case stops the program. Specification: operators as linear combinations of terms with flavours; Wick's theorem as a sum over the permutations that respect flavour, with signs; Dirac adjoint of the diquark matrix; projector from gamma matrices | running the program (C86); the six pairings reduced to two contractions by the symmetry of the diquark matrix and of the colour contraction; multilinearity; determinants through the antisymmetric symbol (C65); entries of the matrices |
| C100 | Vec, VecProps, VecThm | the scalarvec library function by function: site lookup by shift and mask, `peekSite`, `pokeSite`, `QDP_extract`, `QDP_insert`, `latticeCoordinate`, `Map::make`, `Map::operator()` with `gather_sites`, the operators of the inner grid, `zero_rep`, `copymask`, `sum`, `sumMulti`, `write`, `read`, `Layout::create`; `evaluate` and the other functions under `QDP_NOT_IMPLEMENTED` stop the program. Specification: an array of vectors holds a function of the coordinates (by quotient and remainder) | fields as vectors of site values (the source has the vector index innermost); the start of `initRNG` (scalar arithmetic) is not modelled; `globalMax`/`globalMin` of the inner grid do not compile (`s1.elem()` without index) and the parscalarvec library neither (two-parameter `OSubLattice`): not modelled |
| C101 | ArchiveFile, ArchiveNear, ArchiveText, ArchiveFileThm, ArchiveFileBad, ArchiveFileWrong | `mesplq` as a program of lattice operations; `writeArchiv(header, u, file)` and `readArchiv(header, u, file)` on top of the header (C46) and the binary part (C44, C45) for the one-process and the many-process library; plaquette and link trace printed with six digits and read with `sscanf` (C96); the three checks. Specification: averages of traces as sums over sites; distance of links number by number | links real, third row in exact arithmetic; what `mesplq` returns is an argument within 1.5e-6 of the average; conversion to `float` arbitrary within 2^-25; opening and closing the file and terminal output left out; the subtraction in the checks is exact |
| C102 | ArrSums | the loops over members, the parallel regions with their distribution and order per member, the gate of the many-node version, the table of `sumMulti` as `multi2d`, the global sum position by position. Specification: one sum over members and sites; scalar product of a Euclidean space | addition exact; localNorm2, localInnerProduct are functions of the sites (C64), for the laws those of complex numbers; the arrays of OScalar and the single-node `sumMulti` of arrays (which cannot be instantiated: const reference bound to a reference, wrong return type) are not modelled beyond the loops they share |
| C103 | XmlField | `operator<<(XMLWriter&, OLattice)` of three libraries, with messages between the nodes; the writers of complex numbers, vectors, spin vectors, matrices, seeds; the guards for the primary node; the readers of complex numbers and seeds; characters. Specification: a tree, tags read with a stack | a writer is the list of tags and texts it was asked to write (the class that makes characters of them and the XPath reader are not in the repository); the text of a word is a parameter (C70, C96); the many-node vector library is not modelled |
| C104 | VecNodes, VecNodesProps, VecNodesThm | the functions on fields of include/qdp_parscalarvec_specific.h as processes on the network: `evaluate` and the other unimplemented functions, `zero_rep`, `copymask`, `latticeCoordinate`, `Map::operator()` with its packing and messages, `peekSite`, `pokeSite`, `sum`; `initRNG` as a program. Specification: fields are functions of the coordinates, a program is run on those | `INNER_LOG` is 2; simplifications of Vec and Spmd; memory of a new field is that of the field of the same number; input and output in C105 |
| C105 | VecNodesIO, VecArchive | input and output of fields and sites, XML output, computeChecksum, writeArchiv, readArchiv of the libraries with vectors, many nodes as processes on the network. Specification: that of C27, C103 and C45 (`fileBytes`, `fieldTree`, `archBytes`, `fieldSum`) | `INNER_LOG` is 2 on many nodes; numbers and checks of the stream as in Archive; in readArchiv for many nodes the old contents of the buffer are the same for every link |
| C106 | LayoutCreate, LayoutCreateProps, LayoutCreatePar, LayoutCreateNeg | `Layout::create` of the scalar, parscalar and parscalarvec libraries: all tests before `initDefaults`. Specification: `MutuallyInverse` (C01), `Geom.Good` (C02), divisibility of extents | the number of nodes is the size of QMP's grid; QMP's grid is an arbitrary `Machine` (C02); messages, memory pool and `initDefaults` left out; extents are natural numbers except in LayoutCreateNeg |
| C107 | LifeCycle | `QDP_initialize`, `QDP_finalize`, `QDP_abort` of the four libraries as transitions of the static variables `isInit`, the streams, the arrays of `ThreadReductions`, and the profile queue. Specification: places of the calls in the sequence (`Opened`, `Begun`, `FirstTime`, `Proper`) | invariant over sequences by induction from the end; the command line is C76; QMP, QMT, HDF5 taken to do what they are asked |
| C108 | MultiArith | constructors, compound assignments, binary operators, functions, `concat`, `norm2` of `multi1d` as loops over memory with undefined accesses; elements of any type with operations that may fail. Specification: `Pointwise` | loop invariant; exact characterisation of success |
| C109 | RecordInfo | `NumSpins`, `NumColors` as static variables of templates: constant initialisation first, then the others in any order. Specification: recursion over the type | induction over the order from its end |
| C110 | StdStream | the stream classes as processes with broadcasts; the C++ streams are arbitrary functions. Specification: the same program in one process (`alone`) | induction over programs with `bcast_all`, confluence of the network |
| C111 | IntSum | the loops of `sum` with a 32-bit accumulator, any distribution over threads and nodes, any tree of additions in `QMP_sum_int`. Specification: the sum of integers | induction over trees; exact for one thread |
| C112 | FloatSum, FloatSumNorm, FloatSumWrong | rounding of every product and addition to `float` and `double` (formats of FloatText), the loops of `sum` with any distribution over threads and nodes and any tree of additions. Specification: the exact sum over rational numbers | induction over trees with the standard error bound, valid for subnormal numbers since sums of numbers of a format are multiples of its least number |
| C113 | Profile, ProfileThm | `pushProfileInfo`, `popProfileInfo`, `registerProfile`, `printProfile`, the static `QDPProfile_t` of every `evaluate` as heap objects with next pointers. Specification: first executions in the history | invariant: the list of every function is a chain through the heap equal to the statements first executed while it was the last one entered; induction over the history |
| C114 | Database | `BinaryStoreDB` as a program tree on the network of C86 with FILEDB as parameter. Specification: one process calling the library | induction over programs with `bcast_all`; every execution by confluence (`stuck_is_end`) |
| C115 | Files | streams of C++11 with state `fail`, file system, writer, reader and QIO objects. Specification: what was written since the last `opn`, the files as the program means them | invariant over all histories (induction from the end) |
| C116 | Hdf5Open | nodes as automata over a shared file, the library's collective calls with two times at which they take effect. Specification: table `wanted` | invariant over all interleavings, decreasing weight, no other final states |
| C117 | SetObjects | heap of arrays of tables, sets and subsets with their pointers. Specification: sets and subsets as values, with the number of changes of the set that was made | invariant over all histories: ownership of arrays, each subset right while its home is unchanged |
| C118 | DefaultSets | the colour functions, Set::make with a function that may abort, initDefaultSets. Specification: parities of coordinates and of halved coordinates, periodic steps | bits of the colour one by one; sums over coordinates change by one share; closed form of the 32-colour ordering |
| C119 | Buffers | BinaryBufferWriter and BinaryBufferReader on the primary node as contents, positions, state bits, checksum. Specification: the bytes written since the last open, since the last clear; the string cut into the pieces read | induction over histories |
| C120 | SseSpin, SseSpinTables, SseSpinProps | the functions instruction by instruction (loads, shuffles, products with sign masks, stores, the pointers), the loop, the threads' function. Specification: proj, recon, mulVec (onePM d) of C43 | one run on formal signed sums of the words of a site, decided by the kernel; a simulation from formal sums to any ring inside any window of the arrays; induction over sites |
| C121 | VecSse, VecSseTables, VecSseProps | the macro instruction by instruction (transcribed by tools/gen_ssevec.py), the three uses of it in operator* and evaluate, the loop over outer sites, the branch with a table, the complex operators, the scalar product. Specification: matrix product of the elements of one lane | the sums in the registers by computation for symbolic memory; invariant of the loop over outer sites; witnesses (permutation matrices) for every configuration of the refuted cases |
| C122 | FusedSpin, FusedSpinProps | which inlined function each node, object function and branch of evaluate names; the body of the loop statement by statement (loads, stores, the statements of the unrolled products) with the temporaries as local variables of a thread; = and +=. Specification: 3 by 3 complex matrix times vector, adjoint, proj and recon of C43 | the body in closed form for symbolic contents, independence of the temporaries, then the interleaving theorem for loops over sites; C43_link for the hopping term |
| C123 | SseG5Tables (written by tools/gen_sse_g5.py), SseG5Props | the vector statements lane by lane as for C83, advancing a pointer past unread numbers as a statement of its own; the specialisations by operator, expression and calls in both branches, run by one thread. Specification: the generic kernels of C60, Evaluate.Assigned | polynomial check of every table entry by the kernel, then the general theorems on checked kernels and specialisations (Kernel, Blas, SseBlas); two kernels checked against the same polynomials leave the same heap |
| C124 | SseSite, SseSiteTables (written by tools/gen_sse_site.py), SseSiteProps | each specialised operator as its calls of external routines with the parts of the operands and of the result they are given, and the statements behind them; the loop over sites in both branches. Specification: the general operators of Verif.SiteType (C62) | words of the result after the calls by induction on the number of spins; induction on the list of sites |
| C125 | QioBuffer | the call every node makes to QIO, with the broadcast inside `str`; QIO as in C75, asking any one node; reading on every node; the buffers of C119. Specification: the bytes of the writer on the primary node | computation of the calls; the history of reads by C119's invariants |
| C126 | OneBased | the offset of each rank in integers, reads outside undefined; the loops of the operators; resizing with elements that have no value. Specification: indices between one and their size; rows one after the other | reduction to the mixed-radix rank of C38; induction on the loop and on the rows |
| C127 | Component | nests of arrays F[N], F[N*N] with accesses outside undefined; the overloads as paths through the type, with the preferred overload at the level concerned; the loop over the sites. Specification: the number at a list of indices, the relation that puts the given indices in | induction on the path; extensionality by indices; induction on the order of sites |
| C128 | Where | trees of the expression templates evaluated strictly, ints with undefined overflow and division by 0, conversion of C++ numbers to the word of the first operand; the loop over the sites; where and copymask over nests. Specification: lazy evaluation of the same tree, numbers compared exactly; the list of all parts | induction on the expression; induction on the order of the sites; induction on the type |
| C129 | Singleton | holders with instance and flags, the list for std::atexit, constructors and destructors that use other holders recursively; log of what is made and destroyed. Specification: what a use needs, order of the log, no repetition | induction on depth of construction and on the program with an invariant linking holders, log and list; induction on the list at exit |
| C130 | Bits | words in two's complement (BitVec 32), result types of the templates, evaluation at a site, assignment loops. Specification: bits by floor division, divisibility and floor over the rationals, the value of C++ without conversions in between | bits of toInt by cases on the sign; induction on expressions with the invariant that values are words of their kind; induction on the subset |
| C131 | Bagel | table of operator, expression, routine, arguments and count, written by tools/gen_bagel.py from the headers; a routine writes unit*count numbers from a place on, or is undefined beyond the field. Specification: `Evaluate.Assigned` of the expression of `Blas` | one lemma per entry (ring), a call on a range of sites, induction on the site table |
| C132 | BagelReduce | local sum by one call or one call per site, loop over an array, sum over the nodes; a routine beyond the field is undefined. Specification: sums over spin and colour of the spinor of `Blas` | the twelve complex numbers of a site (ring), induction on the sites, the array and the nodes |
| C133 | BagelMat | eighteen specialisations as a table of statement and call; one call for an ordered subset, one per site otherwise; a routine beyond the field is undefined; the products are any library that satisfies `Lib.Ok`. Specification: Mathlib's matrices, conjugate and transpose at each site | a call on a run of sites, by cases on the table; induction on the site table |

Properties found false of the code are recorded below with the refuting theorem, and the strongest true part is
proved with suffix `_partial`.

## Disagreements between code and claims

Each line: what the code does, the theorem that shows it.

* C15: a node without sites keeps its seed; an idle thread copies an uninitialised seed (`C15_*`, module Rng).
* C17: `__rand` shifts the top limb where it should mask it (`C17_refuted`).
* C18: `setrn` before the first random number is ignored (`C18_refuted`).
* C22/C23: with 2^32 elements or more the counter of `byte_swap` wraps (`C22_never_ends`, `C23_count`).
* C26: truncated lines, the little-endian readers and null buffers do not keep the checksum (`C26_truncated`, `C26_little_endian`, `C26_null`).
* C27-C30: the clear-to-send message is 4 bytes long and uses the data buffer, which may be shorter (`C27_short_rows`, `C29_short_site`);
  time slices of a one-dimensional lattice (`C30_one_dimension`).
* C32: `get` and an update move the one stream position, and `insert` of a new key writes there (`C32_lookup_then_insert`,
  `C32_update_then_insert`); an update longer than the old value runs over the next record (`C32_longer_update`).
* C34: the 16-byte link to the map is not written atomically (`C34_torn_link`); a file not yet flushed does not open (`C34_never_flushed`).
* C35: `max_uint64` is 0 when `streamoff` has 64 bits, so positions are divided by zero (`C35_undefined`, `C35_create`, `C35_insert`).
* C36: `open` and `close` do not clear `src_map` (`C36_stale_keys`).
* C37: `fileExists` loops over the open files (`C37_fileExists`); `close` keeps the deleted pointers (`C37_after_close`).
* C39: the call operators of `multiNd` use the extents in the opposite order (`C39_strides_disagree`, `C39_collision`); for all extents they
  address the array with reversed extents (`C39_call_reversed_partial`), so they agree with index lists for extents that read the same both ways.
* C40: self-assignment of multi2d..5d (`C40_self_ub`).
* C41: two empty arrays are not equal (`C41_empty_not_equal`).
* C46: boundary conditions are written as words and scanned as numbers (`C46_boundary`); the data type line always says two rows of 32-bit
  numbers (`C46_format`); labels lose leading blanks (`C46_blanks`) or make the file unreadable (`C46_long_label`); the XML form writes the
  checksum in hexadecimal and reads it in decimal (`C46_xml_checksum`). Only the number of size lines is counted: with `DIMENSION_1` given four
  times the other sizes are compared uninitialised (`C46_twice_refuted`).
* C50: the many-node `sum` drops the share of threads whose number reaches the number of sites (`C50_gate`, `C50_lost`).
* C51/C52: sizes within the alignment of 2^64 wrap around (`C51_wrap`, `C52_wrap`); an exhausted pool is handed to the caller as a null
  pointer (`C52_exhausted`), and freeing unknown pointers is accepted (`C52_unknown`).
* C53: a failing clock makes `stop` add unassigned values (`C53_clock_failure`); starting twice is accepted (`C53_start_twice`); a clock that goes
  backwards within a second gives negative times (`C53_backwards`); accumulated microseconds are not normalised (`C53_not_normalised`).
* C54: `uniquify_list` of an empty array (module Util).
* C55: memory buffers have two positions (`C55_differ`).
* C56: the scalar operand may be an element of the array (`C56_alias`).
* C58: a not-a-number decides the maximum only if it is on the first site (`C58_layout_dependent`).
* C59: `isnormal(PMatrix)` calls `isinf` (`C59_matrix_normal_wrong`, `C59_matrix_normal_inf`); `globalAnd`/`globalOr` hand one-byte objects to
  callbacks that access four bytes (`C59_reduce_undefined`).
* C60/C61: seven kernels read the next site's first number ("pull into cache") also in the last round, i.e. behind the field at its last
  site (`C61_last_site`).
* C63: `imagTrace` of a real number is the number (`C63_imagTrace_false`, `C63_imagTrace_real`).
* C66: `adj(u)*x` with a complex matrix `u` and a real lattice scalar `x` is rewritten to an `adjMultiply` that has no overload, so the
  program does not compile (`C66_not_compiled`). Likewise `trace(x*u)`. The node of `traceColor(l*r)` and `traceSpin(l*r)` carries the container
  type of the full trace, which the model leaves out (it has no influence on values, only on what compiles).
* C68: `h = u*h` for a half fermion `h` is computed in place: the real part of the first component is overwritten before the imaginary part uses it
  (`C68_in_place`, `C68_in_place_wrong`). The general evaluate computes the product into a temporary first.
* C69: the number of words `24*n_3vec` is an `int`, so a node with 89478486 sites or more is undefined (`C69_overflow`); `innerProduct` of two arrays
  runs over the length of the first and reads the second out of bounds if it is shorter (`C69_shorter`).
* C70: the end of the text hides an error: `1 2 99999999999` is read as `1 2` into an array of int, `1 2 -` as well, but `1 2 - ` is an error (`C70_dropped`,
  `C70_blank_matters`). The list functions never report an error and keep what is in front of the bad entry (`C70_list_dropped`). `-1` is accepted in
  unsigned arrays (`C70_negative`).
* C71: the template that reads a `std::list` clears it and then runs to `input.size()`, so it always gives the empty list (`C71_list`). There is
  no function to read `std::list<bool>` as text though there is one to write it (`C71_list_bool`). Reading a map keeps the entries it had (`C71_map`).
* C72: an array with no elements cannot be closed: `closeArray` stops the program and the destructor leaves the tag open (`C72_empty`). Size 0 is not
  enforced (`C72_size_zero`). Values written directly into the array keep their tag and are not counted (`C72_simple`). `push(xml)` in an element opens a tag
  with an empty name (`C72_push_nested`). `XMLArrayWriter::close()` is declared but not defined.
* C73: an exception of the XPath library is thrown on the primary node in front of the broadcast. The other nodes do not see it: they take the next message for the
  missing value (`C73_shifted`, `C73_defaults`) or wait forever (`C73_waits`).
* C74: with an I/O grid that does not divide the machine fewer nodes than asked for may do I/O (5 nodes, 4 asked for: 3; `C74_fewer`). A zero in `-iogeom` is not
  checked and divides by zero on every node (`C74_zero`).
* C75: the readers look at the precision letter of a record but not at its type: integers and single-precision numbers are taken for each other bit by bit
  (`C75_int_as_float`, `C75_float_as_int`). The copy functions move `count` data of the type of the reader, and `count` is the number of data in the record: a record of
  k > 1 fields (or scalars) read into one field (scalar) of k times the size passes the check of QIO and overruns (`C75_overrun`, `C75_scalar_overrun`). Outside the
  hypercube of a record, floating-point fields are zeroed and integer fields are kept (`C75_outside`).
* C76: the check for a missing value comes after `sscanf` has been given the null pointer at the end of `argv`, so the error message is unreachable (`C76_no_error`) and
  a missing value is undefined behaviour (`C76_missing`, `C76_missing_last`). The result of `sscanf` is not looked at: a word that is not a number leaves the variable
  uninitialised (`C76_not_int`). Misspelt options are ignored (`C76_unknown`). All this holds of the four libraries (`C76_libs_missing`, `C76_message_dead`); a pool
  size that is no number is taken silently (`C76_pool_silent`).
* C77: a field of one number per site is written without the last extent and then refused by the reader (`C77_one_number_fails`). There is a writer but no reader for
  single-precision colour matrices (`C77_single_matrix_fails`). An array of one colour matrix is written without the last extent, which the reader looks at before it
  checks the number of extents (`C77_array_of_one_fails`). The writers of general fields take all words for words of type REAL: sites smaller than REAL and
  double-precision fields in a single-precision build go wrong (`C77_small_sites_fail`, `C77_double_fails`). The number of words of a site is taken from the file and
  not compared with that of the field (`C77_narrow_fails`, `C77_wide_fails`, `C77_array_small_fails`). Above 2 GB per node the slowest extent is halved, and when it is
  odd the last rows are neither written nor read (`C77_odd_write_fails`, `C77_odd_read_fails`).
* C78: `writeQlua` stores the last coordinate first, `readQlua` expects the first coordinate first: what is written is refused (`C78_roundtrip_fails`) or, for extents the
  same from both ends, read with the coordinates of every site reversed (`C78_transposed`).
* C79: `cd` to the current group by any name other than its full path pops for ever (`C79_cd_hangs`). `objectExists` of the root reads an element of an empty array
  (`C79_exists_root_fails`). `push` with a data set on the way stops there without an error (`C79_push_blocked`), and the following `pop` leaves the wrong group
  (`C79_push_pop_blocked`). `pop` takes back `push` only if the path has one name (`C79_push_pop_back`).
* C80: a number or string with a name in a group that does not exist is lost without an error, only arrays look at the result (`C80_lost`). A string under a name that is
  taken is dropped with a message (`C80_string_ignored`); strings end at their first zero byte (`C80_read_string_partial`). Reading a single number does not look at
  the extents: an array overruns it, an empty array leaves it as it was (`C80_overrun`, `C80_empty`, `C80_att_overrun`). Scalars of QDP are taken for words of type
  REAL: other sizes overrun the buffer (`C80_scalar_size_fails`), double precision in a single-precision build has its halves exchanged between byte orders
  (`C80_scalar_order_fails`), and a file of another precision overruns the buffer or loses the second half (`C80_scalar_double_fails`, `C80_scalar_single_fails`).
  Colour matrices are written with a type that no reader takes (`C80_colour_matrix_fails`). Reading an empty array of scalars divides by zero
  (`C80_scalars_empty_fails`).
* C81: the kernels store a row of the result before they have read the operands for the next one. `u = g*u`, `u = u*u`, `u = l*adj(u)`, `u = adj(u)*v` and the like, with `=`, `+=`
  and `-=`, assign wrong values in the SSE library, though `u = u*g` and `u = u*adj(g)` work (`C81_in_place`, `C81_products_partial`); the generic library computes the whole
  matrix of a site before it stores. `int index = lo*18` overflows from site 119304648 on (`C81_index`).
* C82: the threads leave their sums in an array that is allocated once and never cleared, and the sum runs over all threads, though the dispatcher starts only as many as there are
  sites. On an ordered subset with fewer sites than threads `norm2` and `innerProduct` add what an earlier call left there (`C82_stale`, `C82_example`: 48 instead of 24), or numbers
  that were never written (`C82_uninitialised`). The array forms of `innerProduct` read past a shorter second array (`C82_arrays_partial`).
* C84: `d = l`, `d += l`, `d -= l` for single-precision colour matrices with SSE use instructions that need addresses divisible by 16 from the first site of an ordered subset on. A matrix has
  72 bytes, so every run that begins at an odd site faults (`C84_odd`, `C84_copies_iff`), e.g. `d[rb[1]] = l` on a node with twice an odd number of sites (`C84_red_black`).
* C85: the claim holds for coordinates on the lattice. Others are not noticed: with one node and lexicographic order the coordinate `(L_0, y)` shows the site `(0, y+1)` (`C85_off_lattice`), in
  the parallel build the site `(0, y)` (`C85_off_lattice_par`). The array of `QDP_extract` needs one element for each site of the node, not of the subset (`C85_extract_short`).
- C88: `x = v` (number or `OScalar`) for an `OSubLattice` with memory of its own calls `evaluate_F(T*, op, OScalar)` (include/qdp_outer.h:240-247), which
  changes the element of the first site only (`C88_scalar_first`, `C88_scalar_wrong`), and for a subset without sites on the node is out of bounds
  (`C88_scalar_empty`). `pokeColor`, `pokeSpin` take its memory for that of a whole field: out of bounds (`C88_poke_own`). `x = y` between two of them compares
  the sizes of the subsets only (`C88_assign_other_sites`, `C88_assign_wrong`). `sum(a[s])` sums the first sites of the node instead of those of `s`
  (`C88_sum_view`, `C88_sum_view_wrong`). `x[s] = v` for an `OScalar` reads `ownsMemory`, which no constructor sets, and if it is false changes a copy
  (`C88_scalar_subset`).
- C89: `complex / integer` computes `T2 tmp = T2(1.0) / r.elem()` in the type of the divisor (include/qdp_reality.h:2013-2021, likewise 2000-2008, 2026-2034): for an
  `Integer` or `LatticeInteger` divisor of magnitude at least 2 the quotient is zero (`C89_div_int`, `C89_div_int_complex`), while `c /= n` is right
  (`C89_div_inconsistent`). The operators with a C++ number take it as the word type of the field (include/QDPOperators.h:3724): `n * 0.5` is zero for an integer
  field (`C89_number_int`). `sin(n)` and the like are cut to an integer (`C89_fn_int`). Not modelled, but seen: `where(mask, complex, real)` and
  `where(mask, real, complex)` (include/qdp_reality.h:2485-2515) call `real()` on an `RScalar`, which has no such member, and cannot be compiled.
- C90: seed zero is accepted by `RNG::setrn` and is a fixed point of the generator; every uniform deviate is then 0 and `gaussian` takes the logarithm of zero at every
  site (`C90_zero_seed`). The uniform deviates have at most 24 significant bits, also in double precision, since `sranf` returns a `float`; no gaussian number exceeds 8.1
  (`C90_bounded`). For complex elements the imaginary parts of both uniform fields are drawn and not used. Not modelled, but seen: `gaussian(OSubScalar<T>&)`
  (include/qdp_outer.h:1460-1470) and `gaussian(OSubScalar<T>)` (include/qdp_outersubtype.h:335-347) cannot be compiled when instantiated.
- C91: in `reunit` with Nc > 3 (examples/reunit.cc:384) the phase of the determinant `t2` is computed as `atan2(imag(t2), real(t1))`; `t1` is the norm of the last column,
  `real(t2)` is meant. The angle so computed lies within (-pi/2, pi/2); the result has determinant 1 only if it had before or its real part happens to equal that norm
  (`C91_det_one_iff`). diag(1,...,1,-1) is handed back unchanged with `sigmasq` 0, so that neither flag reports it (`C91_det_wrong`). The LU decomposition (353-376) has no
  pivoting: a unitary matrix with a zero in the corner, e.g. a permutation matrix of SU(4), gives NaNs (`C91_no_pivot`).
- C92: `MesPlq` (examples/mesplq.cc:63-69) forms `Layout::vol()*Nd*(Nd-1)*Nc` in `int`: 96^3 x 192 sites, four dimensions and three colours overflow, undefined behaviour (`C92_false`);
  `link` (line 75) is divided by 12 Vol for all Nd and Nc: the unit field gives Nd Nc / 12 (`C92_link`).
- C93: `taproj` with one colour (examples/taproj.cc:33) skips the subtraction of the trace, contrary to the comment "that is the anti-hermitian traceless part" (`C93_taproj_one`); harmless in `rgauge`.
- C94: `polylp` (examples/polylp.cc:35) forms `Nc*Layout::vol()` in `int`, which overflows for three colours on 128^3 x 384 sites though the volume does not (`C94_false`).
- C95: `dslash2` (examples/dslashm_w.cc:162-239) fills `tmp` on one checkerboard only and shifts all of it. With an odd extent the neighbour across the boundary has the same colour, and what is read there was never written (`C95_false`). It ignores `isign` other than 1 and -1 and leaves `chi` as it was, where `dslash` treats everything positive as 1 and the rest as -1 (`C95_dslash2_other`). `case (-1)` misses a subset at line 238, harmlessly.
- C96: the writers set `precision(7)` for float and `precision(15)` for double (lib/qdp_xmlio.cc:923, 941 and likewise for the other containers); 9 and 17 digits are needed. 1 + 2^-23 and 1 + 2^-52 come back as 1 (`C96_false_float`, `C96_false_double`). DBL_MAX is written as 1.79769313486232e+308, which is out of range: the reader stops there, and since the end of the text was reached (`! eof() && fail()`) takes it for the regular end: the number is missing, without an error (`C96_largest`). inf and nan are written but not accepted (`C96_nonfinite`); `readListPrimitive` does not look at the state at all and returns what is in front (`C96_nonfinite_list`).
- C97: `operator<<` of RComplex, PVector, PSpinVector and PMatrix for TextWriter (include/qdp_reality.h:411-424, include/qdp_primvector.h:191-200, include/qdp_primmatrix.h:179-189) writes the numbers one after the other with nothing between them, and `>>` needs something between them. The complex number (1,1) is written as `11` and read as 11 with the imaginary part unchanged and failbit set (`C97_false`, for every object of two or more numbers). The PSeed operator writes newlines and works (`C97_seed`). The precision of the streams is left at 6 (`C97_digits_false`). `TextBufferWriter::open(s)` uses `ostringstream::str(s)`, which puts the position at the beginning: what is written replaces s (`C97_initial`). `TextBufferReader::open(s)` does not clear eofbit: a reader that read its text to the end fails for every text it is opened with later (`C97_reopen`, `C97_at_end`). Opening a file reader or writer that is open only sets failbit; `is_open()` is true, the error exit is not taken (`C97_twice`). `operator<<(TextWriter&, char)` is declared (include/qdp_io.h:254) and not defined.
- C98: the comment in FormFac says the cutoff on momenta is `[2,1,0]` (p^2 = 5), the code leaves out p^2 > 4 (examples/formfac_w.cc:129-130, `C98_comment`). `t_eff = (t - t0 + length) % length` is negative for some t if `t0 > length`; the arrays are indexed with it (`C98_source_outside`).
- C99: the comment of `baryon` says that time-charge reversed baryons are computed and added; only the forward ones are (examples/baryon_w.cc:44-45, 226-237, `C99_forward_only`). The comments `C gamma_5 gamma_4 = - Gamma(13)` and `C gamma_5 - C gamma_5 gamma_4 = Gamma(5) + Gamma(13)` have the wrong sign: `C gamma_5 gamma_4 = Gamma(13)`; the matrices used are those of the description at the head, `C gamma_4 gamma_5` (`C99_matrices`).
- C100: the vector library. `sum` over a contiguous subset loops over whole vectors (include/qdp_scalarvec_specific.h:417-427): on 6 x 2 sites in the two-colour order, in vectors of four, the sums of the field 1 over the even and over the odd sites are 8 and 8 (`C100_not_partition`); `create` only asks for a multiple of INNER_LEN. `gather_sites` for INNER_LEN = 2 has `s0.elem(i1)` for `s1.elem(i1)` (include/qdp_inner.h:3312). With `QDP_NOT_IMPLEMENTED` defined (line 58) every assignment to a field is `QDP_error_exit`, so `Layout::create` stops in `initRNG` (`C100_create_never_returns`).
- C101: archives. `writeArchiv` writes DATATYPE = 4D_SU3_GAUGE also for `mat_size = 18`, so the reader takes 12 numbers per link from a stream of 18 and stops with a wrong checksum or link trace (`C101_three_rows`). The checks are those of averages: a field of unitary links of determinant -1 is accepted with another third row in every link (`C101_wrong_accepted`). `fabs(nan - x) > tol` is false: data that give nan pass (`C101_nan`). `Layout::vol()*Nd*(Nd-1)*Nc` (lib/qdp_iogauge.cc:56) is a product of `int` (`C101_overflow`).
- C102: arrays of fields. `innerProduct(multi1d, multi1d)` does not compare the sizes (`C102_short`). The gate `myId < nodeSites` of C50 is in every array version as well and can lose a whole member (`C102_lost`). Seen and not modelled: the versions for `multi1d<OScalar>` bind `OScalar<T>&` to a const element, and the single-node `sumMulti(multi1d<OLattice>)` returns another type than declared, so neither can be instantiated.
- C103: `read(xml, path, PSeed)` does not look at the number of elements it found: `C103_seed_count`. `operator<<(XMLWriter&, const char&)` calls `xml.write(d)`, for which there is no overload for characters: `C103_char_number`.
- C104: `QDP_NOT_IMPLEMENTED` is defined in include/qdp_parscalarvec_specific.h:124, and `QDP_error` prints and returns: no assignment to a lattice field assigns anything (`C104_statement_refuted`), `initRNG` leaves the multipliers as they were (`C104_rng_not_set`). `sum` over a checkerboard of six sites adds up eight (`C104_sum_iff` and the case after it).
- C105: in lib/qdp_parscalarvec_specific.cc:522-530 `*(n_uint32_t*)(su3+k)` with `float su3[3][3][2]` steps by 24 bytes: the third addition reads word 36 of 18 (`C105_link_refuted`), so `readArchiv` on many nodes never gets through (`C105_read_many_refuted`); it also ignores `float_size`. (The comment above it says "Not fixed".)
- C106: `Layout::create` on many nodes does not look at the status of `QMP_layout_grid` and does not test that `nrow[i]` is a multiple of `logical_size[i]` (lib/qdp_parscalar_layout.cc:281-298): with the shape declared by `-geom 3 1` a lattice 4 x 6 is accepted and the sites with x = 3 belong to no node (`C106_geom_refuted`); 6 x 2 on `-geom 2 1` gets blocks of odd extent (`C106_odd_block_refuted`). The test of every site, which would find both (`C106_par_checked`), is compiled only with QDP_DEBUG >= 2. If QMP stops the program itself these lattices are refused by QMP; that is outside the repository. At 2^31 sites the `int` product overflows before any test (`C106_large_refuted`); two negative extents are accepted (`C106_negative_refuted`).
- C107: `QDPIO::cerr` and `QDPIO::cout` hold a null pointer until the end of `QDP_initialize` (lib/qdp_stdio.cc:130, lib/qdp_parscalar_init.cc:306-308), so the message "QDP is not inited" is itself undefined before the first `QDP_initialize` (`C107_early_refuted`; the same holds of the messages for a failure of QMP). On one node `QDP_finalize` frees the arrays of `ThreadReductions` without clearing the pointers and `QDP_abort` calls it again: every `QDP_error_exit` after `QDP_finalize` frees twice (`C107_late_refuted`). With profiling `initProfile` does nothing the second time while `printProfile` has emptied the queue: in a second session the first new statement stops the program (`C107_again_refuted`).
- C108: `operator*(const T& s, const multi1d<T>& a)` and `operator+(s, a)` use `c *= s`, `c += s` (include/qdp_multi.h:418-425, 457-464): for matrices `s * a` is `a[i] * s`, for `std::string` `s + a` appends (`C108_left_refuted`). `norm2` reads `a[0]` of an empty array and squares without conjugation (`C108_norm2_refuted`). `operator-(s, a)` uses a unary minus that does not exist for `multi1d` and `concat` an array of `int`: neither can be instantiated (the latter except for `int`); not expressible in the model.
- C109: `NumSpins<T>::value` and `NumColors<T>::value` are variables initialised from each other (include/qdp_qdpio.h:207-226, 265-274, 304-305). Static members of implicitly instantiated templates are initialised in no particular order, so that a chain of two copies may read 0: the number of spins of a colour matrix, the number of colours of a spin matrix, both for complex and real fields may be stated as 0 (`C109_refuted`).
- C110: `broadcast_str` sends the length of a string as an `int`: a string of 2^31 bytes or more, which one process reads, stops all nodes (`C110_long_refuted`).
- C111: `sum`, `norm2`, `innerProduct` of `int` fields accumulate in `int` (include/qdp_simpleword.h:494-531): whether a sum whose value is 0 is defined depends on the number of nodes (`C111_order_refuted`), and sums beyond 2^31 have no value (`C111_large_refuted`).
- C112: `localNorm2(float)` and `localInnerProduct(float, float)` are `double(s1*s2)` (include/qdp_simpleword.h:414-430): the product is formed in single precision. `norm2` of a nonzero single-precision field can be 0 or infinite though its value is well within double precision (`C112_range_refuted`), and its relative error is 2^-24, not 2^-53 (`C112_precision_refuted`). Sums depend on the machine (`C112_order_refuted`, `C112_finite_refuted`).
- C113: `popProfileInfo` (lib/qdp_profile.cc) sets the level stored with the function that is left, not the one returned to (`C113_level_refuted`); statements are appended to the function entered last, even after its return (`C113_home_refuted`); registration happens in the constructor of a static variable, so statements first run at level 0 never appear (`C113_late_refuted`); `printProfile` empties the queue, after which any new statement at positive level aborts (`C113_after_print_refuted`); `%8d` is used for `unsigned long` microseconds (`C113_time_refuted`).
- C114: `BinaryStoreDB::binaryKeysAndData` (include/qdp_db_imp.h:366) takes both result vectors by value: the caller never sees what was read (`C114_by_value_refuted`). The reading calls abort on more than one node (`C114_read_refuted`), as their error message says.
- C115: `BinaryFileWriter::open` and the other `open` functions of lib/qdp_io.cc test `is_open()`, which stays true when `std::fstream::open` fails because a file is open already: what is written then is lost without a message, though the checksum counts it, and reads leave the variables unchanged (`C115_reopen_refuted`, `C115_read_refuted`). `QDPFileReader/Writer::open` do not close the previous handle (`C115_qio_refuted`).
- C116: all nodes call `remove` (lib/qdp_hdf5.cc:1574) before the collective creation: unless the library synchronises the nodes before it creates the file, a slow node removes the new file (`C116_remove_refuted`).
- C117: `Set::operator=` and the implicit copy constructor copy the subsets with their pointers (lib/qdp_subset.cc:163-169): the subsets of a copy are undefined once the original is destroyed or made again (`C117_copy_refuted`), and assigning to a set changes the table under a subset taken earlier, but not its bounds (`C117_assign_refuted`).
- C118: the sets rb and mcb do not separate neighbours on every lattice the layouts admit: along an odd extent a site and its neighbour across the boundary share the rb colour (`C118_rb_odd_refuted`), and on an extent such as 6 two sites two steps apart share the mcb colour (`C118_mcb_two_refuted`). In one or two dimensions the library cannot be initialised (`C118_few_dimensions`).
- C119: `clear()` of a BinaryBufferWriter, documented as "Clear the buffer", leaves the contents (`C119_clear_refuted`); a writer constructed from a string overwrites its front and has no defined checksum (`C119_string_refuted`); a BinaryBufferReader that once read beyond its end stays unusable through `open`, `seek` and `rewind` until `clear` (`C119_stuck_refuted`); QDPFileReader reads records into buffers by `open` (lib/qdp_qdpio.cc:285) and inherits this.
- C120: the SSE spin inlines run `n_vec-1` rounds of an unsigned type, so a call for no site runs off its arrays (`C120_empty_refuted`); `ordered_sse_spin_project_evaluate_function` (and the generic `ordered_spin_project_evaluate_function`) calls the function for `hi-lo` sites from the beginning of the arrays whatever `lo` is, so that with several threads the last sites are never assigned (`C120_threads_refuted`). No architecture includes these headers at this commit.
- C121: lib/qdp_scalarvecsite_sse.cc: `a = a*b` is wrong because the macro stores column 0 before it reads the left operand for column 1 (`C121_in_place_refuted`); the loop over `start >> INNER_LOG … end >> INNER_LOG` assigns whole vectors (`C121_inside_vector_refuted`); the branch with a table indexes vectors by site numbers (`C121_table_refuted`) and names a variable `i` that is not declared.
- C123: include/scalarsite_sse/qdp_scalarsite_sse_blas_g5.h does not compile: lines 940 and 985, in the branches with a table of `d = a * chiralProjectPlus(x)` and `d = a * chiralProjectMinus(x)`, declare an unused `yptr` with an initialiser that names `y`, which is not declared there. Nothing includes the header. Its first preprocessor branch (builds without SSE) moreover asks for a file `generig_blas_g5.h` that does not exist (qdp_scalarsite_sse_blas_g5_includes.h:12). With the two lines removed the specialisations are right (C123_statement), also on the subsets for which the generic ones read behind the field (C61_last_site).
- C125: reading a record into a `BinaryBufferReader` that was used before neither clears its state nor its checksum: after a read beyond the end of the last record all reads of the next one leave their variables as they are (`C125_reused_refuted`, `C125_checksum_refuted`)
- C126: in arrays with indices from one of rank 2 and more, index 0 is the last element of the row before (`C126_zero_refuted`); `size()` is the range of the last index, so a loop over the first index up to `size()` leaves a rectangular array (`C126_size_refuted`)
- C127: nothing is refused: column N of a matrix is column 0 of the next row, for peeks and pokes (`C127_column_refuted`), and other indices out of range are undefined (`C127_row`)
- C128: `where` and `&&` evaluate all operands: `where(n != 0, m/n, c)` is undefined at sites with n = 0 (`C128_guard_refuted`); `where(mask, n, 7)` is 1 where the mask is false (`C128_number_refuted`); `n < 2.5` with an integer field compares with 2 (`C128_cut_refuted`); `where` of a real and a complex object does not compile, `RScalar` has no `real()`
- C129: `SetLongevity` allocates bytes for pointers and writes beyond (`C129_longevity_refuted`; its `pTrackerArray` and `AtExitFn` are defined nowhere); `CreateUsingMalloc` returning 0 is used (`C129_memory_refuted`); a destructor may meet a dead reference, depending on the order of first uses (`C129_dead_refuted`); a revived phoenix is never destroyed (`C129_phoenix_refuted`)
- C130: arithmetic of two boolean fields stays boolean: `(a<b)+(c<d)` is at most 1 (`C130_bool_refuted`); a shifted boolean stays boolean (`C130_shiftbool_refuted`); a C++ number next to a boolean field is first made a boolean (`C130_number_refuted`)
- C131: the comment at the types expects the specialisations to work for staggered fermions as well, but the count is four per site: on the whole lattice the routine runs behind the end of the fields (`C131_staggered_refuted`, `C131_any_spin_refuted`)
- C132: `innerProduct` and `innerProductReal` of arrays do not compare the lengths: a shorter second array is read behind its end (`C132_lengths_refuted`); with staggered fermions the routines read behind the end of the fields (`C132_staggered_refuted`)
- C133: `evaluate` hands a destination that is also an operand of a product (`u = u * v`) to the routine of the library without a temporary and without a check; whether the result is right depends on code outside the repository (`C133_alias_open`), the general `evaluate` is right for such statements

## Caveats of the site model

* Exact arithmetic over an arbitrary commutative ring. Extents are at least one.
* Where no overload exists the Lean function returns `junk`, and theorems carry the predicate that the overload exists.
* A PScalar is identified with its element.

## Caveats of the kernel model

* Numbers are elements of an arbitrary field; rounding is not modelled. A load, a store or an assignment of a register is one step.
* The value fetched by a cache pull is never used by the kernels; the model keeps it undefined, so a use would be an error. When the
  pulled array is the destination, the fetched cell may be written by the neighbouring thread at the same time: formally a data race, modelled
  as a read without effect.
* Kernels are given a block `len` of cells and a `slack` behind it, up to the end of the field.

## Caveats of the I/O model

* A stream has one position, also when reads and writes alternate on a file; writes never fail; reading past the end is `ub`
  because the buffer handed to the caller is then uninitialised.
* Negative sizes read from a file are `ub`.
* Broadcasts and messages deliver what was sent. The nodes of a machine are run in the order of the source text.
* The buffer `recv_buf` of the lattice writers is filled from left to right; it is modelled by what was put into it.

## Caveats of the map-object model

* Reading and writing may alternate on one file stream without a seek between them, as libstdc++ allows.
* A write to a stream opened for reading only is `ub`; opening a missing file without `trunc` stops the program.
* The iteration order of `unordered_map` is a parameter: any permutation that depends on the list of entries only.
* A crash applies a prefix of the byte writes in program order; reordering by the operating system is not modelled.
* `Plat` describes the host: byte order, width of `streamoff`, what division by zero does, iteration order. `Readable` hosts can decode
  positions (width 64 included); `Usable` hosts can also encode them (width of 66 bits or more).
* The string constructors of the buffer readers leave the checksum uninitialised; the model starts it at 0, and nothing reads it there.
