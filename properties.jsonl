{"id": "C01", "title": "H2 binary file round trip", "statement": "If an operator is written through OutH2Stream (all sectors, in order) to a binary H2 file in format 0, 15099 or 15200 and the file is opened with InH2Stream, then ReadSector(k) returns, for every sector k, a matrix whose stored entries (upper triangle of a diagonal sector, every entry of an off-diagonal one) are the single-precision images of the (normalisation-converted) entries handed to WriteSector(k), and no error is reported.", "quantifier": "every list of sectors (any number, any dimensions including 0, any grouping into pp/nn/pn blocks), every matrix content, every order of reading", "why_tests_cant": "the file layout depends on the whole list of sector dimensions and types; tests fix one or two bases and a single read order", "anchors": ["libraries/tbme/h2_io.cpp: OutH2Stream::WriteSector, InH2Stream::ReadSector", "libraries/tbme/h2_io_v0.cpp", "libraries/tbme/h2_io_v15099.cpp", "libraries/tbme/h2_io_v15200.cpp: ReadSector_Version*, WriteSector_Version*"]}
{"id": "C02", "title": "Random access equals sequential access", "statement": "On an input H2 stream, the matrix returned by ReadSector(k) does not depend on which sectors were requested before, in which order or how often: it always equals what one sequential scan of the file returns for sector k.", "quantifier": "every file content, every finite history of ReadSector calls (any order, repetitions, backward and forward jumps)", "why_tests_cant": "number of access histories is infinite; tests read sequentially", "anchors": ["libraries/tbme/h2_io.cpp: InH2Stream::ReadSector, SkipSector, SeekToSector"]}
{"id": "C03", "title": "Skipping a sector advances exactly like reading it", "statement": "Skipping over a sector moves the file position to the same place as reading it and performs the same record-delimiter checks, in each format and mode.", "quantifier": "every sector shape and every position in the sector list, formats 0/15099/15200, text and binary", "why_tests_cant": "skip and read are separate hand-duplicated code paths; a mismatch shows only on certain sector shapes and seek patterns", "anchors": ["libraries/tbme/h2_io_v0.cpp: SkipSector_Version0, ReadSector_Version0", "libraries/tbme/h2_io_v15099.cpp: SkipSector_Version15099", "libraries/tbme/h2_io_v15200.cpp: SkipSector_Version15200"]}
{"id": "C04", "title": "Fortran records are well formed", "statement": "In binary format 0 and 15099 files the body is a sequence of Fortran unformatted records: each record is preceded and followed by the same 4-byte marker, whose value is the number of payload bytes between the two markers; one record per pp/nn/pn type that has sectors.", "quantifier": "every sector list in which sectors of the same type are contiguous, any sizes below the record limit", "why_tests_cant": "the marker is computed from a global count, the payload from per-sector loops; equality for all bases is a counting theorem", "anchors": ["libraries/tbme/h2_io.cpp: EvaluateCountsByType, SectorIsFirstOfType, SectorIsLastOfType", "libraries/tbme/h2_io_v15099.cpp: WriteSector_Version15099", "libraries/tbme/h2_io_v0.cpp: WriteSector_Version0"]}
{"id": "C05", "title": "Header sizes equal the number of stored matrix elements", "statement": "The per-type matrix element counts announced in the header equal the numbers of matrix elements that the sector writers emit for that type, and the reader's independent recount agrees with it.", "quantifier": "every sector list and every dimension", "why_tests_cant": "count formula d(d+1)/2 vs. nested loops; needs induction over dimension and list", "anchors": ["libraries/tbme/h2_io.cpp: GetSectorCount, EvaluateCountsByType", "libraries/tbme/h2_io_v15099.cpp: WriteHeader_Version15099, ReadHeader_Version15099"]}
{"id": "C06", "title": "Sector enumeration is a gap-free bijection", "statement": "The enumeration order of stored matrix elements visits each stored (bra,ket) pair exactly once, so the transfer buffer allocated from the closed-form count is filled exactly, never overrun and never left partly unset.", "quantifier": "every pair of dimensions, diagonal and off-diagonal sectors", "why_tests_cant": "buffer overrun would be undefined behaviour for some dimension; tests check a few", "anchors": ["libraries/tbme/h2_io_v0.cpp", "libraries/tbme/h2_io_v15099.cpp", "libraries/tbme/h2_io_v15200.cpp: nested bra_index/ket_index loops"]}
{"id": "C07", "title": "H2 header round trip", "statement": "Parsing the header written for an operator returns the same orbitals, tensor character (J0,g0,Tz0), weight cutoffs (each assigned to the right species pair) and sizes, for each format, consuming exactly the bytes written.", "quantifier": "every orbital list, every cutoff, every tensor character representable in the format's integer/float fields", "why_tests_cant": "15200 stores pp/pn/nn order while memory uses pp/nn/pn; a swapped pair is invisible in tests with equal cutoffs", "anchors": ["libraries/tbme/h2_io_v0.cpp: ReadHeader_Version0, WriteHeader_Version0", "libraries/tbme/h2_io_v15099.cpp: ReadHeader_Version15099, WriteHeader_Version15099", "libraries/tbme/h2_io_v15200.cpp: ReadHeader_Version15200, WriteHeader_Version15200"]}
{"id": "C08", "title": "Every file the writer accepts can be opened by the reader", "statement": "If OutH2Stream accepts the operator and completes, InH2Stream can open the resulting file in the same format.", "quantifier": "all formats, all operators accepted by the writer (any Tz0)", "why_tests_cant": "a writer/reader asymmetry shows only on the tensor character nobody tests", "anchors": ["libraries/tbme/h2_io_v15099.cpp: WriteHeader_Version15099, ReadHeader_Version15099", "libraries/tbme/h2_io_v0.cpp: WriteHeader_Version0"]}
{"id": "C09", "title": "H2 text file round trip with label check", "statement": "A text H2 file written by OutH2Stream is accepted by the reader's label validation line by line, and ReadSector returns the (text-rounded) matrix elements in the right cells; a line whose labels do not belong to the expected matrix element is rejected.", "quantifier": "every sector list, orbital index assignment and matrix content, formats 0/15099/15200", "why_tests_cant": "labels depend on species offsets and orbital counts; all bases cannot be enumerated", "anchors": ["libraries/tbme/h2_io_v0.cpp", "libraries/tbme/h2_io_v15099.cpp", "libraries/tbme/h2_io_v15200.cpp: text branches"]}
{"id": "C10", "title": "15200 orbital numbers identify orbitals uniquely", "statement": "The 1-based orbital numbers written in 15200 text files are distinct for distinct orbitals of either species and lie in 1..(number of orbitals).", "quantifier": "every number of proton and neutron orbitals and every index in range", "why_tests_cant": "offset arithmetic over all sizes", "anchors": ["libraries/tbme/h2_io_v15200.cpp: bra_index1_offset etc."]}
{"id": "C11", "title": "Lower triangle of diagonal sectors never matters on output and is zero on input", "statement": "Two operators that differ only below the diagonal of diagonal sectors produce identical files; a sector read from file has zeros below the diagonal in diagonal sectors.", "quantifier": "every sector list and matrix pair", "why_tests_cant": "universally quantified over the ignored entries", "anchors": ["libraries/tbme/h2_io.h: symmetrization convention", "libraries/tbme/h2_io_v15099.cpp: ReadSector_Version15099, WriteSector_Version15099"]}
{"id": "C12", "title": "Writer emits every sector exactly once and in order", "statement": "Any sequence of WriteSector calls that completes without an assertion failure wrote sectors 0,1,2,... in this order with matching dimensions; after as many calls as there are sectors nothing more can be written.", "quantifier": "every sequence of WriteSector calls", "why_tests_cant": "quantifies over call histories", "anchors": ["libraries/tbme/h2_io.cpp: OutH2Stream::WriteSector"]}
{"id": "C13", "title": "AS to NAS conversion factor", "statement": "With AS-to-NAS conversion the element written is the AS element divided by the norms of the bra and ket: factor 1/sqrt2 for each like-species pair state occupying one orbital twice, 1 otherwise; proton-neutron states are never rescaled. Applying the conversion and its inverse restores the operator.", "quantifier": "every bra/ket pair state, all formats", "why_tests_cant": "combination of species and equal-index cases over all states", "anchors": ["libraries/tbme/h2_io_v0.cpp", "libraries/tbme/h2_io_v15099.cpp", "libraries/tbme/h2_io_v15200.cpp: conversion_factor"]}
{"id": "C14", "title": "File mode is determined by the last four characters", "statement": "A file name selects text, matrix or binary mode exactly when it ends in .dat, .mat or .bin; all other names are rejected before a file is opened.", "quantifier": "all strings", "why_tests_cant": "all strings", "anchors": ["libraries/tbme/h2_io.cpp: DeducedIOMode"]}
{"id": "C15", "title": "Two-body remapping sends each state to the same physical state", "statement": "For every source two-body state, the mapping either gives the target index of the state with the same pair of orbitals together with the phase relating the two orderings, or reports absence exactly when the target basis has no such state.", "quantifier": "every source and target orbital list and two-body basis, any reordering and truncation", "why_tests_cant": "depends on arbitrary reorderings of orbitals; tests use one permutation", "anchors": ["libraries/tbme/tbme_mapping.cpp: TwoBodyMapping::TwoBodyMapping"]}
{"id": "C16", "title": "Two-body mapping is injective on states", "statement": "Two different source states of one subspace never map to the same target state, so remapping never writes one target entry twice.", "quantifier": "every pair of bases", "why_tests_cant": "injectivity is a universal statement", "anchors": ["libraries/tbme/tbme_mapping.cpp: TwoBodyMapping::TwoBodyMapping, RemappedMatrixJJJPN"]}
{"id": "C17", "title": "Antisymmetry phase of swapped orbitals", "statement": "When source and target order a like-species pair differently the phase is (-1)^(j1+j2+J+1), mapping there and back multiplies to +1, and no phase is ever applied to proton-neutron states.", "quantifier": "all j1, j2, J", "why_tests_cant": "sign errors appear only for particular j1+j2+J parity", "anchors": ["libraries/tbme/tbme_mapping.cpp: phase computation"]}
{"id": "C18", "title": "Coverage flags are exact", "statement": "range_states_covered (and the other coverage flags) is true exactly when every target state (orbital, subspace) is the image of a source one.", "quantifier": "every pair of bases", "why_tests_cant": "computed by counting; correctness needs injectivity for all bases", "anchors": ["libraries/tbme/tbme_mapping.cpp: coverage flags", "programs/h2utils/h2mixer.cpp: InputChannel::InitializeChannel"]}
{"id": "C19", "title": "Remapped matrix elements are the source matrix elements", "statement": "Every entry of the remapped matrix is the source matrix element between the corresponding states times both phases if both states exist in the source, and exactly zero otherwise.", "quantifier": "every source sector, mapping and matrix", "why_tests_cant": "all bases and matrices", "anchors": ["libraries/tbme/tbme_mapping.cpp: RemappedMatrixJJJPN"]}
{"id": "C20", "title": "Remapping is independent of thread schedule", "statement": "The parallel remapping loop gives the same matrix under every interleaving of its iterations.", "quantifier": "every execution order of the loop iterations (any permutation), every mapping produced by the constructor", "why_tests_cant": "interleavings are not controllable by tests", "anchors": ["libraries/tbme/tbme_mapping.cpp: RemappedMatrixJJJPN (omp parallel for collapse(2))"]}
{"id": "C21", "title": "Symmetric completion before remapping is sufficient and necessary", "statement": "Reading an H2 diagonal sector, completing the lower triangle and remapping gives the correct upper triangle in the target basis for every reordering; skipping the completion loses matrix elements for some reorderings.", "quantifier": "every basis reordering", "why_tests_cant": "depends on which orbitals swap relative order", "anchors": ["programs/h2utils/h2mixer.cpp: InputChannel::PopulateSourceMatrix, XformChannel::PopulateSourceMatrix", "libraries/tbme/tbme_mapping.cpp: RemappedMatrixJJJPN"]}
{"id": "C22", "title": "Identity orbital transformation leaves two-body matrix elements unchanged", "statement": "Transforming a two-body operator with overlaps equal to the identity returns the same normalised antisymmetrised matrix elements (on completed matrices).", "quantifier": "every basis, J, parity, every operator", "why_tests_cant": "requires the exchange terms and NAS factors to cancel for all states", "anchors": ["libraries/tbme/tbme_xform.cpp: TwoBodyOverlap, TwoBodyTransformationMatrix, TwoBodyTransformedMatrix"]}
{"id": "C23", "title": "Two-body transformation preserves symmetry and is linear", "statement": "The transformed matrix is linear in the source matrix, and the transform of a symmetric matrix is symmetric in diagonal sectors.", "quantifier": "all overlaps, all matrices, all scalars", "why_tests_cant": "universal algebraic law", "anchors": ["libraries/tbme/tbme_xform.cpp: TwoBodyTransformedMatrix"]}
{"id": "C24", "title": "Antisymmetrised overlap changes by the exchange phase under interchange", "statement": "Swapping the two orbitals of a like-species bra or ket multiplies the two-body overlap by -(-1)^(J-j1-j2); states forbidden by antisymmetry have zero overlap.", "quantifier": "all orbitals, J and overlaps", "why_tests_cant": "sign law for all quantum numbers", "anchors": ["libraries/tbme/tbme_xform.cpp: TwoBodyOverlap, TwoBodyOverlapProduct"]}
{"id": "C25", "title": "Orthogonal orbital transformations preserve the two-body product structure", "statement": "The distinguishable-pair transformation built from two orthogonal orbital transformations is orthogonal, and the transformation for a product of orbital transformations is the product of the transformations.", "quantifier": "all dimensions, all orthogonal matrices", "why_tests_cant": "universal algebraic law", "anchors": ["libraries/tbme/tbme_xform.cpp: TwoBodyOverlapProduct, TwoBodyTransformationMatrix"]}
{"id": "C26", "title": "Identity two-body operator", "statement": "The builtin identity operator has value 2/(A(A-1)) on the diagonal of every diagonal sector and zero elsewhere, so its sum over the A(A-1)/2 pairs is 1; off-diagonal sectors are rejected.", "quantifier": "all A>=2, all sectors", "why_tests_cant": "all A and bases", "anchors": ["libraries/tbme/tbme_separable.cpp: IdentityOperatorMatrixJJJPN"]}
{"id": "C27", "title": "Lowering operator matrix elements are the adjoint of raising ones", "statement": "The reduced matrix element of c between any two oscillator orbitals is the transpose of that of c-dagger.", "quantifier": "all N, l, N', l' (physical or not)", "why_tests_cant": "closed forms over an infinite set of quantum numbers", "anchors": ["libraries/analytic/radial_oscillator_me.h: CDaggerOscillatorMatrixElement, COscillatorMatrixElement"]}
{"id": "C28", "title": "Squared coordinate is the square of the coordinate", "statement": "For all oscillator orbitals the r^2 radial matrix element equals the sum over intermediate shells (through a fixed intermediate l) of products of r matrix elements, for every allowed route, and for operator_sign=-1 it equals the square of ik.", "quantifier": "all physical N,l,N',l' and both signs", "why_tests_cant": "algebraic identity over all shells", "anchors": ["libraries/analytic/radial_oscillator_me.h: CoordinateOscillatorMatrixElement, CoordinateSqrOscillatorMatrixElement"]}
{"id": "C29", "title": "Coordinate matrix elements are symmetric, momentum ones antisymmetric", "statement": "r matrix elements are symmetric under bra-ket exchange, ik matrix elements antisymmetric, r^2 and k^2 matrix elements symmetric.", "quantifier": "all N, l pairs", "why_tests_cant": "all quantum numbers", "anchors": ["libraries/analytic/radial_oscillator_me.h"]}
{"id": "C30", "title": "k^2 is a positive operator", "statement": "Diagonal matrix elements of the squared relative momentum operator (and of its oscillator radial matrix) are positive, as documented ('k^2 = -del^2').", "quantifier": "all N,l, both coordinate types", "why_tests_cant": "sign convention holds or fails for all shells", "anchors": ["libraries/analytic/radial_oscillator_me.h: CoordinateSqrOscillatorMatrixElement", "libraries/relative/relative_me.cpp: ConstructCoordinateSqr"]}
{"id": "C31", "title": "Oscillator wave functions by recurrence equal the Laguerre closed form", "statement": "The radial functions generated by the recurrence equal the normalised oscillator functions sqrt(2 n!/Gamma(n+l+3/2)) x^(l+1) exp(-x^2/2) L_n^(l+1/2)(x^2) (position space), for every n.", "quantifier": "all n, l, b>0, r>=0, power shift", "why_tests_cant": "all n", "anchors": ["libraries/quadrature/oscillator_wf.h: OscillatorWaveFunctions"]}
{"id": "C32", "title": "Momentum-space wave functions alternate in sign", "statement": "In momentum space the recurrence generates (-1)^n times the position-space form.", "quantifier": "all n, l, arguments", "why_tests_cant": "wrong sign enters only from n=2 on; no test instantiates the momentum branch", "anchors": ["libraries/quadrature/oscillator_wf.h: OscillatorWaveFunctionRecurrenceN"]}
{"id": "C33", "title": "Single wave function agrees with the vector version", "statement": "OscillatorWaveFunction(n,...) equals element n of OscillatorWaveFunctions(nmax,...) for every nmax>=n, in both spaces.", "quantifier": "all n<=nmax, l, b, arguments", "why_tests_cant": "rotating-swap loop vs. table, all n", "anchors": ["libraries/quadrature/oscillator_wf.h: OscillatorWaveFunction, OscillatorWaveFunctions"]}
{"id": "C34", "title": "Quadrature mesh transformation", "statement": "The coordinate transformation is a strictly increasing bijection from [0,1) to [0,infinity) and the advertised Jacobian is its derivative, in position and momentum space.", "quantifier": "all z in [0,1), b>0", "why_tests_cant": "real-analysis statement", "anchors": ["libraries/quadrature/mesh.h: TransformedCoordinate, TransformedCoordinateJacobian"]}
{"id": "C35", "title": "Restricted radial loops lose no nonzero matrix element", "statement": "The relative radial matrices of r and r^2/k^2 contain every nonzero radial matrix element: the restricted inner loop visits all bra states that can be connected.", "quantifier": "all L, delta L in {-2,0,2} resp. {-1,1}, all dimensions", "why_tests_cant": "dropped elements appear only for an uncommon orientation and n>=2", "anchors": ["libraries/relative/relative_me.cpp: RadialCoordinateSqrMatrix, RadialCoordinateMatrix"]}
{"id": "C36", "title": "JPV triangle enumeration", "statement": "The streaming reader of JPV sectors assigns the k-th value to the k-th upper-triangular position in column order, for exactly dim(dim+1)/2 values, independent of how values are broken into lines.", "quantifier": "all dimensions, all line breakings", "why_tests_cant": "all dimensions and line layouts", "anchors": ["libraries/relative/jpv_io.cpp: ReadJPVOperator"]}
{"id": "C37", "title": "JPV sectors fill the off-diagonal block completely", "statement": "For a coupled channel, the two triangular sectors (L,L') and (L',L) of a JPV file together determine every entry of the off-diagonal block, consistently on the shared diagonal.", "quantifier": "all dimensions and values", "why_tests_cant": "all dims", "anchors": ["libraries/relative/jpv_io.cpp: ReadJPVOperator (flip)"]}
{"id": "C38", "title": "Isospin decomposition round trip", "statement": "Converting pp, nn, pn matrix elements to isospin components T0=0,1,2 on input (JPV or pn format) and branching them again to pp, nn, pn reproduces the original values; all three conversion tables are mutually consistent.", "quantifier": "all matrix element values", "why_tests_cant": "linear identity for all reals; inconsistent table permutations cancel in symmetric tests", "anchors": ["libraries/relative/jpv_io.cpp: ReadJPVOperatorPN", "libraries/relative/pn_io.cpp: ReadPNOperatorPN", "libraries/moshinsky/moshinsky_xform.cpp: kIsospinCoefficientsTToTzForT11"]}
{"id": "C39", "title": "Single-species operators act on their species only", "statement": "The isospin factors of a proton (neutron) operator branch to exactly 1 for pp (nn) and 0 for the other two species pairs; the total is charge-independent on nn+pp.", "quantifier": "all values", "why_tests_cant": "exact identity", "anchors": ["libraries/relative/relative_me.cpp: kSingleSpeciesOperatorIsospinFactors, ConstructCoulombOperator"]}
{"id": "C40", "title": "pn-format reader is order independent and symmetric", "statement": "Reading a pn-format file in any line order gives the same operator when no two lines address the same matrix element, diagonal sectors come out symmetric, and lines outside the truncation change nothing.", "quantifier": "all permutations of lines, all values", "why_tests_cant": "all permutations", "anchors": ["libraries/relative/pn_io.cpp: ReadPNOperator"]}
{"id": "C41", "title": "SU(4) Casimir depends only on spatial symmetry", "statement": "For every antisymmetry-allowed relative channel the SU(4) Casimir is 5 for even L and 9 for odd L.", "quantifier": "all allowed (L,S,T)", "why_tests_cant": "all L", "anchors": ["libraries/relative/relative_me.cpp: ConstructSU4CasimirOperator"]}
{"id": "C42", "title": "Relative transformation with unit length ratio is truncation", "statement": "Transforming a relative operator with b_ratio=1 returns the (symmetrised) source restricted to the target truncation, zero padded, for every pair of truncations.", "quantifier": "all source/target dimensions and operators", "why_tests_cant": "all dims", "anchors": ["libraries/relative/relative_xform.cpp: PopulateRelativeXformMatrix, TransformRelativeOperatorLSJT"]}
{"id": "C43", "title": "Moshinsky bracket memoisation is transparent", "statement": "The value of a Moshinsky bracket does not depend on which brackets were requested earlier: the cached evaluation always equals the uncached recursion.", "quantifier": "all histories of bracket requests, all arguments (including invalid ones)", "why_tests_cant": "call histories", "anchors": ["libraries/moshinsky/moshinsky_bracket.cpp: MoshinskyBracket"]}
{"id": "C44", "title": "Moshinsky recursion terminates and respects selection rules", "statement": "Evaluation of a bracket terminates for all integer arguments; it is zero for negative arguments, when the oscillator quanta differ or when a triangle condition fails, and every bracket requested inside the recursion from a quanta-conserving call conserves quanta.", "quantifier": "all integer arguments", "why_tests_cant": "termination for all arguments", "anchors": ["libraries/moshinsky/moshinsky_bracket.cpp: MoshinskyBracket"]}
{"id": "C45", "title": "Seed bracket factorial arguments are valid", "statement": "In the seed formula every factorial argument is a non-negative integer and all halvings are exact whenever the selection rules hold, and all arguments are bounded by 2*rho+1 so that no overflow of the factorial table occurs below rho=85.", "quantifier": "all allowed seed arguments", "why_tests_cant": "all quantum numbers", "anchors": ["libraries/moshinsky/moshinsky_bracket.cpp: SeedMoshinskyBracket, MoshinskyACoefficient"]}
{"id": "C46", "title": "Isospin-scalar operators branch to equal pp, nn and pn(T=1) elements", "statement": "For an isoscalar source the pp and nn matrix elements produced by the pn branching are equal to the T=1 element and the pn element between distinct orbitals is the half sum of T=1 and T=0 contributions with the stated phase.", "quantifier": "all matrix element values and state labels", "why_tests_cant": "all inputs", "anchors": ["libraries/moshinsky/moshinsky_xform.cpp: TwoBodyMatrixJJJPN"]}
{"id": "C47", "title": "Branching tables are Clebsch-Gordan coefficients and never indexed out of range", "statement": "Each entry of the isospin branching tables used for allowed (T',T,T0,Tz0,Tz) equals the corresponding Clebsch-Gordan coefficient and lies inside the table.", "quantifier": "all allowed isospin label combinations", "why_tests_cant": "complete finite domain; tests check few", "anchors": ["libraries/moshinsky/moshinsky_xform.cpp: kIsospinCoefficient*"]}
{"id": "C48", "title": "Canonical order carries over from jj to LS labels", "statement": "A pair ordered canonically by (N,j) is ordered canonically by (N,l), so the recoupling lookup always finds an existing LS state.", "quantifier": "all N1,l1,j1,N2,l2,j2 with N>=l, parity-allowed", "why_tests_cant": "all quantum numbers", "anchors": ["libraries/moshinsky/moshinsky_xform.cpp: TransformationMatrixTwoBodyLSJTNToTwoBodyJJJTN (508-518)"]}
{"id": "C49", "title": "Relative to relative-cm conversion conserves the centre of mass", "statement": "The relative-cm matrix elements vanish unless centre-of-mass quantum numbers of bra and ket agree, and depend linearly on the relative matrix elements.", "quantifier": "all states and operators", "why_tests_cant": "all states", "anchors": ["libraries/moshinsky/moshinsky_xform.cpp: RelativeCMMatrixLSJTN"]}
{"id": "C50", "title": "Composition of radial overlaps is matrix composition", "statement": "Composing two overlap sets gives blockwise the matrix product, is associative, and composing with the identity overlaps changes nothing; blocks missing in either factor give a zero block.", "quantifier": "all spaces, sectors and matrices", "why_tests_cant": "all spaces", "anchors": ["libraries/obme/radial.cpp: ComposeRadialOperators", "programs/obutils/radial-compose.cpp"]}
{"id": "C51", "title": "radial-compose rejects non-radial operands", "statement": "radial-compose exits with an error if either input file is not of radial type.", "quantifier": "all pairs of operand types", "why_tests_cant": "needs the wrong type in the second operand", "anchors": ["programs/obutils/radial-compose.cpp: main"]}
{"id": "C52", "title": "Similarity transformation of one-body operators", "statement": "The similarity transform of an operator by overlaps is O' = U^T O U blockwise; transforming by U then V equals transforming by UV; symmetric blocks stay symmetric; identity overlaps change nothing.", "quantifier": "all spaces, overlaps, operators", "why_tests_cant": "algebraic law", "anchors": ["libraries/obme/radial.cpp: SimilarityTransformOperator"]}
{"id": "C53", "title": "One-body matrix element file round trip", "statement": "Writing one-body matrix elements and reading them back gives the same blocks up to text rounding and the chop threshold, for every sector list; the written file's sectors are in the order of the indexing.", "quantifier": "all sector lists and matrices", "why_tests_cant": "all shapes", "anchors": ["libraries/obme/obme_io.cpp: OutOBMEStream::Write, InOBMEStream::Read"]}
{"id": "C54", "title": "Squared angular momentum operators", "statement": "l^2, s^2, j^2 have eigenvalues l(l+1), 3/4, j(j+1) on every orbital and vanish off the diagonal.", "quantifier": "all orbitals", "why_tests_cant": "all orbitals", "anchors": ["libraries/obme/obme.cpp: AngularMomentumSquaredOneBodyOperator"]}
{"id": "C55", "title": "Target is the requested linear combination", "statement": "Each sector written to a target equals the sum over its add-source lines of coefficient times source matrix; the result does not depend on the order of add-source lines or on other targets and unused sources; a repeated id adds its coefficients.", "quantifier": "all control files, all sources, all sectors", "why_tests_cant": "all control files", "anchors": ["programs/h2utils/h2mixer.cpp: ReadParameters, TargetChannel::GenerateTargetMatrix, main"]}
{"id": "C56", "title": "A source id that was never defined is reported", "statement": "If a target's add-source names an id for which no two-body source was defined, the run reports an error rather than silently omitting the term.", "quantifier": "all control files", "why_tests_cant": "needs misspelt ids", "anchors": ["programs/h2utils/h2mixer.cpp: TargetChannel::GenerateTargetMatrix"]}
{"id": "C57", "title": "One-body source names are defined once and before use", "statement": "In h2mixer a one-body source can only refer to one-body sources defined earlier; redefinition or forward reference terminates the run, so every successfully built operator has a unique, well-founded definition.", "quantifier": "all control files", "why_tests_cant": "all control files", "anchors": ["programs/h2utils/h2mixer.cpp: OneBody*Channel::ConstructOneBodyOperatorData"]}
{"id": "C58", "title": "Orbital count per j", "statement": "The number of oscillator orbitals with angular momentum j in shells up to N is N - j + 3/2 for all j up to the maximal one.", "quantifier": "all N, j", "why_tests_cant": "all N", "anchors": ["programs/statecount/statecount.cpp: OrbitalDimension"]}
{"id": "C59", "title": "Three-body count by closed form equals sum over intermediate J1", "statement": "The closed-form count of intermediate couplings equals the number of J1 with triangle(ja,jb,J1) and triangle(J1,jc,J); hence the total equals the sum of the J1-resolved counts.", "quantifier": "all ja,jb,jc,J half-integers of consistent type", "why_tests_cant": "all quantum numbers", "anchors": ["programs/statecount/statecount.cpp: ThreeBodyDimension*"]}
{"id": "C60", "title": "Triangular orbital generation", "statement": "orbital-gen --triangular produces, for each species, exactly the orbitals (n,l,j) with a*n+b*l <= weight_max and j=l\u00b11/2>0, each once, whenever it terminates; it terminates exactly when weight_max<0 or both a>0 and b>0.", "quantifier": "all real a,b,weight_max", "why_tests_cant": "non-termination is outside tests", "anchors": ["programs/obutils/orbital-gen.cpp: main"]}
{"id": "C61", "title": "Density multipole storage", "statement": "For each multipole J0 between J0_min and J0_max GetMultipole returns the block set stored for that J0; requests outside are rejected; storage is zero-initialised, later elements overwrite earlier ones.", "quantifier": "all J0 ranges and element lists", "why_tests_cant": "all ranges", "anchors": ["libraries/density/obdme_io.h: sectors, matrices", "libraries/density/obdme_io.cpp: InitStorage, GetMultipole"]}
{"id": "C62", "title": "Every data line of a single-file density is used", "statement": "All data lines of a single-file density are stored, whether or not the last line ends in a newline.", "quantifier": "all file contents", "why_tests_cant": "newline at end of file differs between producers", "anchors": ["libraries/density/obdme_io.cpp: InOBDMEStreamSingle::ReadData1520"]}
{"id": "C63", "title": "Generated wave functions are orthonormal", "statement": "The radial functions generated for one l and oscillator length b are orthonormal on (0,infinity).", "quantifier": "all n, n', l, b>0", "why_tests_cant": "an infinite family of improper integrals", "anchors": ["libraries/quadrature/oscillator_wf.h: OscillatorWaveFunction"]}
{"id": "C64", "title": "Analytic radial matrix elements are integrals of the generated wave functions", "statement": "The analytic r, ik, r^2 and (ik)^2 elements equal the integrals of the coordinate, of the radial derivative d/dr -+, of the squared coordinate and of the gradient applied twice (within one l, of the Laplacian) between the wave functions generated by the quadrature code, with the same phase convention.", "quantifier": "all n, n', l, l' with the selection rule of the operator", "why_tests_cant": "two independent implementations compared for all quantum numbers by exact integrals", "anchors": ["libraries/analytic/radial_oscillator_me.h", "libraries/quadrature/oscillator_wf.h"]}
{"id": "C65", "title": "Relative dipole operator is Hermitian", "statement": "The orbital reduced matrix elements of the relative dipole operator in the two orientations of a sector are Hermitian conjugates and satisfy the unit-vector sum rule.", "quantifier": "all L", "why_tests_cant": "only one orientation is ever generated for a given subspace order", "anchors": ["libraries/relative/relative_me.cpp: ConstructDipoleOperator"]}
{"id": "C66", "title": "One-body tensor product", "statement": "The spherical tensor product of two one-body operators in one space never aborts when ranks, parities and charges are compatible, each element is the sum over all intermediate orbitals of Racah factor times product of elements, and incompatible products are rejected.", "quantifier": "all spaces, all operators, all compatible ranks", "why_tests_cant": "unbounded family of spaces and ranks", "anchors": ["libraries/obme/obme.cpp: OneBodyOperatorTensorProduct"]}
{"id": "C67", "title": "Angular momentum and isospin operators do not change n", "statement": "The generated l, s, j operators and the isospin operators are zero between orbitals with different n, and equal the reduced matrix element (resp. isospin factor) between orbitals of equal n.", "quantifier": "all orbital spaces", "why_tests_cant": "tests use complete shells where position in the subspace equals n", "anchors": ["libraries/obme/obme.cpp: AngularMomentumOneBodyOperator, IsospinOneBodyOperator"]}
{"id": "C68", "title": "Generated radial operators are the radial integrals", "statement": "Generation of r, ik and r^2 in the oscillator basis never aborts, and every element equals the radial integral between the oscillator functions; order zero is the identity in n and l.", "quantifier": "all orbital spaces", "why_tests_cant": "all n, l, and the assertion inside the analytic formulae must be unreachable", "anchors": ["libraries/obme/radial.cpp: GenerateRadialOperator"]}
{"id": "C69", "title": "One-body ladder operators are adjoint", "statement": "The generated one-body lowering operator is the adjoint (up to the angular factor) of the raising operator, element by element.", "quantifier": "all orbital spaces", "why_tests_cant": "all orbitals", "anchors": ["libraries/obme/obme.cpp: LadderOneBodyOperator"]}
{"id": "C70", "title": "Solid-harmonic sources hold r^k Y_J", "statement": "An obmixer solid-harmonic source of radial power k and rank J0 holds the reduced matrix elements of r^k Y_J0.", "quantifier": "all powers and ranks", "why_tests_cant": "the factor is only visible when power and rank differ", "anchors": ["programs/obutils/obmixer.cpp: OneBodyGeneratedChannel::ConstructOneBodyOperatorData"]}
{"id": "C71", "title": "Versions of one-body operator files", "statement": "A one-body operator file of an unsupported version is reported, and every accepted file sets the operator type.", "quantifier": "all files", "why_tests_cant": "uninitialised variables usually look plausible in tests", "anchors": ["libraries/obme/obme_io.cpp: InOBMEStream::ReadHeader"]}
{"id": "C72", "title": "radial-xform writes the transformed operator", "statement": "radial-xform writes a file from which U^T O U is read back with the type and tensor character of the source; it stops unless the operator space, the orbital file and the transformation agree and the transformation is a scalar of radial type.", "quantifier": "all files", "why_tests_cant": "composition of reader, transformation and writer for all spaces", "anchors": ["programs/obutils/radial-xform.cpp: main"]}
{"id": "C73", "title": "Upgraded one-body operators are (u1+u2)/(A-1)", "statement": "The two-body matrix of an upgraded one-body operator has, for every pair of states, the element of u(1)+u(2) between the normalised antisymmetric two-particle states, divided by A-1; it vanishes where the ranks form no triangle, and A=1 is refused.", "quantifier": "all spaces, operators, pairs of states, masses", "why_tests_cant": "phases and normalisation factors of every combination of equal and different orbitals must be right together", "anchors": ["libraries/tbme/tbme_separable.cpp: UpgradeOneBodyOperatorJJJPN"]}
{"id": "C74", "title": "Product operators are [x(1) y(2)] between antisymmetric states", "statement": "The two-body matrix of two one-body factors has, for every pair of states, the element of the coupled product of x on particle 1 and y on particle 2 between the normalised antisymmetric states, also when the shortcut for equal ranks or for identical factors is taken.", "quantifier": "all spaces, factors, ranks, pairs of states", "why_tests_cant": "the shortcuts are only valid because of a symmetry of the nine-j symbol", "anchors": ["libraries/tbme/tbme_separable.cpp: RacahReduceTensorProductJJJPN"]}
{"id": "C75", "title": "Mass normalisation of the identity", "statement": "Upgrading the one-body identity gives A times the built-in two-body identity, in every diagonal sector.", "quantifier": "all spaces, masses", "why_tests_cant": "two independent code paths for all states", "anchors": ["libraries/tbme/tbme_separable.cpp: UpgradeOneBodyOperatorJJJPN, IdentityOperatorMatrixJJJPN"]}
{"id": "C76", "title": "Upgrading keeps symmetry", "statement": "The upgrade of a symmetric scalar one-body operator is a symmetric matrix, so storing its upper triangle loses nothing.", "quantifier": "all spaces, operators", "why_tests_cant": "all pairs of states", "anchors": ["libraries/tbme/tbme_separable.cpp: UpgradeOneBodyOperatorJJJPN"]}
{"id": "C77", "title": "Exchange of the factors of a product", "statement": "Exchanging the two factors of a product operator multiplies it by (-)^(J1+J2-J0).", "quantifier": "all spaces, factors, ranks", "why_tests_cant": "all ranks and pairs of states", "anchors": ["libraries/tbme/tbme_separable.cpp: RacahReduceTensorProductJJJPN"]}
{"id": "C78", "title": "An input source between equal indexings is copied", "statement": "A source read from a two-body file whose indexing agrees with the target is delivered unchanged (lower triangle completed on diagonal sectors); with different orbital lists each element of the target is the file's element between the same physical states, and zero where the file has none. A target made of files, or a single file, is the combination, or a copy.", "quantifier": "all files, indexings, sectors, elements", "why_tests_cant": "all orders of orbitals and phases of the exchanged pairs", "anchors": ["programs/h2utils/h2mixer.cpp: InputChannel::PopulateSourceMatrix"]}
{"id": "C79", "title": "A transformed source is the similarity transformation of the file", "statement": "The xform source delivers, for every sector, the two-body transformation by the named radial overlaps of the file's operator restricted to the intermediate space.", "quantifier": "all files, overlaps, cutoffs, sectors", "why_tests_cant": "two remappings and a matrix product must agree on order and normalisation of states", "anchors": ["programs/h2utils/h2mixer.cpp: XformChannel::PopulateSourceMatrix"]}
{"id": "C80", "title": "Named one-body operators are what their definition says", "statement": "In both mixers a linear combination, tensor product, transformation or input defines the operator obtained from the operators named in it; every such definition with existing operands of the right shape is accepted.", "quantifier": "all programs of definitions, spaces, operators", "why_tests_cant": "arbitrarily nested definitions", "anchors": ["programs/h2utils/h2mixer.cpp: OneBodyLinearCombinationChannel, OneBodyTensorProductChannel, OneBodyXformChannel", "programs/obutils/obmixer.cpp: the same channels"]}
{"id": "C81", "title": "obmixer writes the named operators", "statement": "Each target file of obmixer holds the named operator in the order of the target lines; an unknown name ends the run; nothing else can end a run whose definitions are accepted.", "quantifier": "all control files", "why_tests_cant": "arbitrary definitions", "anchors": ["programs/obutils/obmixer.cpp: TargetChannel::WriteChannel, main"]}
{"id": "C82", "title": "Two-body source names are unique", "statement": "Two two-body sources of the same name are rejected.", "quantifier": "all control files", "why_tests_cant": "tests do not give a name twice", "anchors": ["programs/h2utils/h2mixer.cpp: main"]}
{"id": "C83", "title": "Tensor character of the sources of a target", "statement": "Every source of a run has the tensor character of the targets, or the run ends.", "quantifier": "all sources", "why_tests_cant": "a source of another character gives plausible numbers", "anchors": ["programs/h2utils/h2mixer.cpp: InitializeChannel"]}
{"id": "C84", "title": "The mass is set when it is needed", "statement": "A run that uses the mass number does so only after set-mass.", "quantifier": "all control files", "why_tests_cant": "an uninitialised integer often looks plausible", "anchors": ["programs/h2utils/h2mixer.cpp: RunParameters, PopulateSourceMatrix"]}
{"id": "C85", "title": "Separable sources are the operators they are named after", "statement": "A source operatorU delivers (u(1)+u(2))/(A-1), a source operatorV the factor times [x(1) y(2)], between the normalised antisymmetric states of the target, for the named one-body operators.", "quantifier": "all targets, operators, masses, factors", "why_tests_cant": "lookup of orbitals between two independent spaces", "anchors": ["programs/h2utils/h2mixer.cpp: OperatorUChannel::PopulateSourceMatrix, OperatorVChannel::PopulateSourceMatrix"]}
{"id": "C86", "title": "One-body operator files between different spaces are rejected", "statement": "A one-body operator file whose bra and ket spaces differ is rejected as a source.", "quantifier": "all files", "why_tests_cant": "needs a file no program of the suite writes", "anchors": ["programs/h2utils/h2mixer.cpp: OneBodyInputChannel::ConstructOneBodyOperatorData", "programs/obutils/obmixer.cpp: OneBodyInputChannel::ConstructOneBodyOperatorData"]}
{"id": "C87", "title": "The name given to a source does not change its meaning", "statement": "Two sources of obmixer that differ only in their name are the same operator.", "quantifier": "all names", "why_tests_cant": "tests use few names", "anchors": ["programs/obutils/obmixer.cpp: OneBodyGeneratedChannel::ConstructOneBodyOperatorData"]}
{"id": "C88", "title": "The built-in names stand for the operators they are named after", "statement": "l2, s2, j2 are the squared angular momenta, tz, t+, t- the isospin operators, l, s, j the vector operators, c+ and c the ladder operators of the oscillator, identity the unit operator; the two-body identity is 2/(A(A-1)) on each pair state.", "quantifier": "all spaces, orbitals", "why_tests_cant": "all orbitals", "anchors": ["programs/h2utils/h2mixer.cpp: tables 295-318, OneBodyBuiltinChannel, BuiltinChannel"]}
{"id": "C89", "title": "The last setting line decides", "statement": "Mass, tensor character, output format, weights, cutoff and orbital file are those of the last line setting them, wherever it stands, and the default if there is none; the same for basis and length of obmixer.", "quantifier": "all control files", "why_tests_cant": "all orders and repetitions of lines", "anchors": ["programs/h2utils/h2mixer.cpp: ReadParameters", "programs/obutils/obmixer.cpp: ReadParameters"]}
{"id": "C90", "title": "Lines of different kinds may be exchanged", "statement": "The meaning of a control file depends only on the sequences of lines of each kind (settings of each quantity, transformations, one-body definitions with their terms, two-body definitions, targets with their terms), not on how they are interleaved.", "quantifier": "all control files", "why_tests_cant": "all interleavings", "anchors": ["programs/h2utils/h2mixer.cpp: ReadParameters", "programs/obutils/obmixer.cpp: ReadParameters"]}
{"id": "C91", "title": "Terms belong to the definition before them", "statement": "Each target has exactly the add-source lines between its define-target line and the next; each linear combination exactly the add-ob-source lines between its definition and the next one-body definition.", "quantifier": "all control files", "why_tests_cant": "all interleavings", "anchors": ["programs/h2utils/h2mixer.cpp: ReadParameters", "programs/obutils/obmixer.cpp: ReadParameters"]}
{"id": "C92", "title": "Which control files are accepted", "statement": "A line is accepted exactly if it has the words of one of the documented forms, with numbers where numbers are needed and known names where names are tabulated; a file is accepted exactly if its lines are and every term follows a definition it can belong to. What an accepted line means is the form it has.", "quantifier": "all lines, all control files", "why_tests_cant": "the space of malformed lines", "anchors": ["programs/h2utils/h2mixer.cpp: ReadParameters", "programs/obutils/obmixer.cpp: ReadParameters"]}
{"id": "C93", "title": "Repeated or incomplete transformations are reported", "statement": "A define-xform line that repeats a name, or lacks its arguments, ends the run.", "quantifier": "all control files", "why_tests_cant": "tests define each transformation once", "anchors": ["programs/h2utils/h2mixer.cpp: ReadParameters (define-xform)"]}
{"id": "C94", "title": "The last indexing line decides the target orbitals", "statement": "The orbitals of the targets are those of the last line that sets the indexing.", "quantifier": "all control files", "why_tests_cant": "tests have one such line", "anchors": ["programs/h2utils/h2mixer.cpp: ReadParameters, InitializeTargetIndexing"]}
{"id": "C95", "title": "Blanks and surplus words on a line", "statement": "A line means the same with and without trailing blanks, and a line with words after its last argument is reported.", "quantifier": "all lines", "why_tests_cant": "invisible characters", "anchors": ["programs/h2utils/h2mixer.cpp: ReadParameters"]}
{"id": "C96", "title": "From the control file to the target files", "statement": "A run of h2mixer that ends well writes the targets named in the control file, in order, each with the sum of coefficient times source over its terms; when the sources are files, the elements are those of the sum of the operators in the files. A run of obmixer writes, for each define-target line, a file that reads back as the named operator on the orbitals of the last set-basis line.", "quantifier": "all control files, all input files, all indexings", "why_tests_cant": "the composition of parsing, opening, construction, summation and output over all inputs", "anchors": ["programs/h2utils/h2mixer.cpp: main", "programs/obutils/obmixer.cpp: main"]}
{"id": "C97", "title": "The exact state counts count every set of orbitals once", "statement": "The two- and three-body counts of statecount with one-body or many-body cutoff end and equal the sum, over the unordered pairs or triples of oscillator orbitals allowed by the cutoff, of the number of times J occurs in the product of their angular momenta, whatever the order of the orbitals within a shell.", "quantifier": "all N, J, enumerations of the orbitals shell by shell", "why_tests_cant": "all N; the loops stop at the first orbital outside the cutoff", "anchors": ["programs/statecount/statecount.cpp: TwoBodyDimension*, ThreeBodyDimension*"]}
{"id": "C98", "title": "The counts ordered by j are upper bounds", "statement": "The AM-centric counts of statecount are never below the exact ones and exceed them by a closed expression: d(d-1)/2 for each j with d orbitals that couples with itself to J for two particles, and the corresponding expression for three.", "quantifier": "all N, J", "why_tests_cant": "all N", "anchors": ["programs/statecount/statecount.cpp: *AMCentric"]}
{"id": "C99", "title": "What a multi-file density means", "statement": "The densities of version 1405 and 1500 multi-file input are those of the numbers in the data file, in the order of the places in the info file, for version 1405 once for protons and then once for neutrons, each multiplied by sqrt(4 pi) and divided by the hat factor of the bra orbital; the places announced are the places used.", "quantifier": "all info and data files of these versions, all orbital spaces", "why_tests_cant": "two files read in lockstep, all contents", "anchors": ["libraries/density/obdme_io.cpp: InOBDMEStreamMulti"]}
{"id": "C100", "title": "A truncated data file is rejected", "statement": "A data file of a multi-file density with fewer numbers than announced is rejected.", "quantifier": "all data files", "why_tests_cant": "tests use complete files", "anchors": ["libraries/density/obdme_io.cpp: InOBDMEStreamMulti::ReadData"]}
{"id": "C101", "title": "Observables are contractions of operator and density", "statement": "The value of obscalc-ob for an operator and a density is the sum over pairs of orbitals, given by their quantum numbers, of the element of the operator times the element of the density, in the stated normalisation, when parity, charge, triangle, projection and multipole range allow it, and is left out otherwise.", "quantifier": "all orbital spaces, operators, densities", "why_tests_cant": "all spaces; operator and density come from files with their own orbital lists", "anchors": ["programs/obutils/obscalc-ob.cpp: CalculateMatrixElement"]}
{"id": "C102", "title": "An obscalc-ob run evaluates every operator with every density", "statement": "Exactly the documented control lines are accepted. The output has a section for each declared operator, in order, with a row for each declared density, in order, for which there is a value; an operator without value has no section. Each density is read with the orbitals set before it.", "quantifier": "all control files", "why_tests_cant": "all interleavings of declarations", "anchors": ["programs/obutils/obscalc-ob.cpp: ReadParameters", "programs/obutils/obscalc-ob.cpp: main"]}
{"id": "C103", "title": "natorb-gen writes natural orbitals", "statement": "For a symmetric scalar density the transformation file written by natorb-gen reads back as an orthogonal transformation that mixes only orbitals with the same l, j and species, makes the density diagonal, and orders the occupations so that they do not increase within each such set; the output orbitals are the input orbitals and the occupations add up to the trace of the density.", "quantifier": "all orbital spaces, all symmetric densities, all orders of the output orbitals", "why_tests_cant": "all spaces; sectors of input and output are matched by position in a loop", "anchors": ["programs/obutils/natorb-gen.cpp: main"]}
{"id": "C104", "title": "The info file labels occupations by output orbitals", "statement": "Each occupation in the info file of natorb-gen is labelled by the output orbital it belongs to.", "quantifier": "all orbital spaces", "why_tests_cant": "tests use spaces with n = 0, 1, 2, ...", "anchors": ["programs/obutils/natorb-gen.cpp: main"]}
{"id": "C105", "title": "natorb-gen uses the last settings and rejects unknown keywords", "statement": "Exactly the documented control lines are accepted; a run uses the last density, read with the orbitals set before it, the last orbitals and the last output names.", "quantifier": "all control files", "why_tests_cant": "all control files", "anchors": ["programs/obutils/natorb-gen.cpp: ReadParameters", "programs/obutils/natorb-gen.cpp: main"]}
{"id": "C106", "title": "Stored r^2 and k^2 are the reduced elements of those operators", "statement": "ConstructCoordinateSqr stores, in component T0, the reduced matrix elements (Rose, in J and in T) of r^2 or k^2 times 1 (T0=0) or tau1+tau2 (T0=1) between relative states |n (L S)J T> of oscillator length sqrt(2); all other components are zero; other labels are refused.", "quantifier": "all spaces, sectors, radial quantum numbers, both coordinates", "why_tests_cant": "tests compare a few entries at small Nmax with earlier output; the states and integrals are not built there", "anchors": ["libraries/relative/relative_me.cpp: ConstructCoordinateSqr"]}
{"id": "C107", "title": "Stored orbital angular momentum is that of L", "statement": "ConstructOrbitalAMOperator stores the reduced matrix elements of L times 1 or tau1+tau2; other labels are refused.", "quantifier": "all spaces, sectors", "why_tests_cant": "a recoupling factor with wrong order of arguments is right in the channels without spin", "anchors": ["libraries/relative/relative_me.cpp: ConstructOrbitalAMOperator"]}
{"id": "C108", "title": "Stored spin is that of s1+s2, or of s1 tau1 + s2 tau2; Gamow-Teller is -gA times sigma tau / 2", "statement": "ConstructSpinAMOperator stores the reduced matrix elements of s1+s2 (T0=0) or of s1 tau1 + s2 tau2 (T0=1), and LOGT stores -gA times the latter; other labels are refused.", "quantifier": "all spaces, sectors", "why_tests_cant": "the isovector operator changes S and T at once; few channels are in any test", "anchors": ["libraries/relative/relative_me.cpp: ConstructSpinAMOperator", "libraries/relative/lenpic_relative_me.cpp: ConstructLOGTOperator"]}
{"id": "C109", "title": "Stored isospin is that of t1+t2", "statement": "ConstructIsospinOperator stores, in component 1, the reduced matrix elements of t1+t2; other labels are refused.", "quantifier": "all spaces, sectors", "why_tests_cant": "all spaces", "anchors": ["libraries/relative/relative_me.cpp: ConstructIsospinOperator"]}
{"id": "C110", "title": "Stored SU(4) Casimir is the quadratic Casimir of the pair", "statement": "ConstructSU4CasimirOperator stores, in component 0, the reduced matrix elements of the quadratic Casimir operator of SU(4), the sum of the squares of spin, isospin and spin-isospin generators of the pair; other labels are refused.", "quantifier": "all spaces, sectors", "why_tests_cant": "the code has a formula in S and T, the operator acts on projections", "anchors": ["libraries/relative/relative_me.cpp: ConstructSU4CasimirOperator"]}
{"id": "C111", "title": "Stored Coulomb components act on the pairs they name", "statement": "ConstructCoulombOperator stores in components T0 = 0, 1, 2 the reduced elements of an operator that has, for pp, nn or all pairs as asked, the integral of 1/r for oscillator length sqrt(2) (up to the error of the integrator) in the stated pairs and zero in the others.", "quantifier": "all spaces, sectors, radial quantum numbers", "why_tests_cant": "the three components have to be combined with Clebsch-Gordan coefficients to be seen", "anchors": ["libraries/relative/relative_me.cpp: ConstructCoulombOperator"]}
{"id": "C112", "title": "Stored quadrupole is that of r^2 Y2 / 2", "statement": "ConstructQuadrupoleOperator stores, in sectors in canonical order, the reduced matrix elements of (1/2) r^2 Y2 times 1 or tau1+tau2; momentum and other labels are refused.", "quantifier": "all spaces, sectors, radial quantum numbers", "why_tests_cant": "3j and 6j symbols, phases and radial integrals have to be right together", "anchors": ["libraries/relative/relative_me.cpp: ConstructQuadrupoleOperator"]}
{"id": "C113", "title": "Stored dipole is that of (tau1-tau2) r", "statement": "ConstructDipoleOperator stores the reduced matrix elements of (tau1-tau2) r or (tau1-tau2) k.", "quantifier": "all spaces, sectors, radial quantum numbers", "why_tests_cant": "raising and lowering sectors have different formulae; a test of one does not see the other", "anchors": ["libraries/relative/relative_me.cpp: ConstructDipoleOperator"]}
{"id": "C114", "title": "Relative operators give intrinsic operators with the stated factors", "statement": "With the factors stated in the header the sum over pairs of the relative operator is the intrinsic operator of the A-body system: r^2, k^2, kinetic energy, L, dipole, spin, isospin, SU(4) Casimir.", "quantifier": "all A, all positions, momenta, spins", "why_tests_cant": "an identity in A", "anchors": ["libraries/relative/relative_me.h: ConstructCoordinateSqr", "libraries/relative/relative_me.h: ConstructOrbitalAMOperator", "libraries/relative/relative_me.h: ConstructDipoleOperator", "libraries/relative/relative_me.h: ConstructSpinAMOperator", "libraries/relative/relative_me.h: ConstructSU4CasimirOperator"]}
{"id": "C115", "title": "Stored N2LO Gamow-Teller operator is the axial current of one-pion range with its contact term", "statement": "ConstructN2LOGTOperator stores the reduced matrix elements of the two-body axial current at N2LO: c3 (V s1 t1 + V s2 t2) + (c4/2)(s1 x V s2 + V s1 x s2)(t1 x t2) with V the (locally regulated) matrix of second derivatives of the Yukawa function, plus the contact term of strength D; other labels and regulators without a known contact constant are reported.", "quantifier": "all spaces, sectors, radial quantum numbers, oscillator lengths, regulators", "why_tests_cant": "central and tensor terms, recoupling factors and six constants have to be right together; no reference values exist for general channels", "anchors": ["libraries/relative/lenpic_relative_me.cpp: ConstructN2LOGTOperator", "libraries/relative/lenpic_constants.h"]}
{"id": "C116", "title": "The contact term of the axial current acts between S waves with the smeared delta function", "statement": "The contact term stored by ConstructN2LOGTOperator is the matrix element of a product of smeared delta functions: it vanishes unless L = L' = 0, and has the integrals of the wave function over space against the smeared delta function.", "quantifier": "all L, all lengths and regulators", "why_tests_cant": "a numerical comparison has no reference; the formula has to be compared with the operator", "anchors": ["libraries/relative/lenpic_relative_me.cpp: ConstructN2LOGTOperator"]}
{"id": "C117", "title": "relative-gen reads exactly the documented control file", "statement": "relative-gen accepts a control file exactly when its four lines hold, in order, the operator labels, the truncation, the operator name with the arguments documented for it, and the file name; the values used are those written; Jmax is Nmax+1; a file with a line missing is refused.", "quantifier": "all control files", "why_tests_cant": "each name has its own arguments; the files that ought to be refused are unbounded in number", "anchors": ["programs/relutils/relative-gen.cpp: ReadParameters"]}
{"id": "C118", "title": "A unit tensor has a single element, the one named", "statement": "For labels of two states in canonical order connected by the operator, symmunit writes 1 in that element and 0 in every other; all other labels are refused.", "quantifier": "all spaces, labels, operators", "why_tests_cant": "every other element in every sector and component has to be zero", "anchors": ["programs/relutils/relative-gen.cpp: PopulateOperator"]}
{"id": "C119", "title": "relative-gen writes the operator that its control file names", "statement": "For every operator name, relative-gen writes over all sectors of the space of the control file the reduced elements of the operator of that name with the arguments given, and refuses labels the operator does not have and names that are unknown.", "quantifier": "all control files, spaces, sectors, radial quantum numbers", "why_tests_cant": "names, arguments and constructors have to agree for all spaces at once", "anchors": ["programs/relutils/relative-gen.cpp: PopulateOperator", "programs/relutils/relative-gen.cpp: main"]}
{"id": "C120", "title": "h2conv preserves the operator", "statement": "If h2conv finishes, the file it wrote opens in the requested format with the orbitals, cutoffs and quantum numbers of the input, and holds for every pair of subspaces the matrix that the input holds (exactly for binary output, rounded to the printed digits for text), although the two formats order their subspaces differently; requests it cannot meet are refused.", "quantifier": "all input files, formats, media, indexings", "why_tests_cant": "the two indexings differ; every sector has to be found under its labels for all spaces", "anchors": ["programs/h2utils/h2conv.cpp: main"]}
{"id": "C121", "title": "h2conv refuses operators that the requested format cannot hold", "statement": "Conversion to a format that cannot express the input (charge-changing operators in 15099, general orbitals in 0) is refused rather than giving a file that is unreadable or describes another space.", "quantifier": "all input files", "why_tests_cant": "absence of a check shows only for inputs that no test uses", "anchors": ["programs/h2utils/h2conv.cpp: main", "libraries/tbme/h2_io_v15099.cpp: WriteHeader_Version15099", "libraries/tbme/h2_io_v0.cpp: WriteHeader_Version0"]}
{"id": "C122", "title": "jpv2rel writes the elements of a JPV file, whichever way its channels are ordered", "statement": "jpv2rel accepts exactly the documented control files. From one file whose channels lie in the space it writes an isoscalar operator, and every stored element is what the file says: the value of the section of that channel, in direct or reversed order of bra and ket, or zero where no section gives one. A file with a channel outside the space is refused.", "quantifier": "all control files, JPV files, line breaks, truncations", "why_tests_cant": "sections may come in either order, with dimensions unlike those of the target; every element in every sector has to be right", "anchors": ["programs/relutils/jpv2rel.cpp: ReadParameters", "programs/relutils/jpv2rel.cpp: main", "libraries/relative/jpv_io.cpp: ReadJPVOperator"]}
{"id": "C123", "title": "jpv2rel combines pp, nn and pn files into isospin components that give them back", "statement": "From three files jpv2rel writes three isospin components. In each T=1 sector their combination with Clebsch-Gordan coefficients at Tz=+1, -1, 0 gives the elements of the pp, nn and pn file; T=0 sectors have those of the pn file; sectors that change isospin are zero.", "quantifier": "all JPV files, truncations, sectors", "why_tests_cant": "three components in three files have to combine in every sector of every space", "anchors": ["programs/relutils/jpv2rel.cpp: main", "libraries/relative/jpv_io.cpp: ReadJPVOperatorPN"]}
{"id": "C124", "title": "pn2rel writes the elements of a file of lines labelled by Tz", "statement": "If the lines lie in the space and conserve parity, pn2rel writes three isospin components whose combination gives, for pp, nn and pn pairs, the elements of the lines labelled Tz=-1, +1 and 0, each used for the element and for its transpose; T=0 sectors have the pn elements; sectors that change isospin are zero.", "quantifier": "all files, truncations, sectors, elements", "why_tests_cant": "each line fills two places of one of three components; combinations cannot be enumerated", "anchors": ["programs/relutils/pn2rel.cpp: main", "libraries/relative/pn_io.cpp: ReadPNOperatorPN"]}
{"id": "C125", "title": "pn2rel refuses input it cannot use", "statement": "Missing arguments, lines outside the space and lines that do not conserve parity are reported.", "quantifier": "all argument lists and files", "why_tests_cant": "absence of a check shows only for inputs that no test uses", "anchors": ["programs/relutils/pn2rel.cpp: main", "libraries/relative/pn_io.cpp: ReadPNOperatorPN"]}
{"id": "C126", "title": "relative-xform writes the transformed operator in the space asked for", "statement": "relative-xform accepts exactly the documented control files; the file written has the labels and Jmax of the source and the Nmax asked for, and each element is the sum over source states of overlap, symmetrised source element and overlap; channels the source lacks are zero; with unit ratio elements are unchanged; a ratio that is not positive is refused.", "quantifier": "all control files, source operators, truncations, ratios", "why_tests_cant": "sectors of two spaces of different truncation have to be matched by labels for all spaces", "anchors": ["programs/relutils/relative-xform.cpp: ReadParameters", "programs/relutils/relative-xform.cpp: main", "libraries/relative/relative_xform.cpp: TransformRelativeOperatorLSJT"]}
{"id": "C127", "title": "relative-filter applies the filter that is named", "statement": "relative-filter writes the source operator with the elements excluded by the named filter (identity, Nrelmax, N0max) set to zero, and refuses unknown filters.", "quantifier": "all control files and operators", "why_tests_cant": "the control file offers filters; whether they are applied to every element is a statement about all operators", "anchors": ["programs/relutils/relative-filter.cpp: ReadParameters", "programs/relutils/relative-filter.cpp: FilterOperator"]}
{"id": "C128", "title": "moshinsky accepts exactly the documented control files and writes the target asked for", "statement": "moshinsky succeeds only with a control file that gives a one-body or two-body cutoff, a relative or relative-cm source, and a target that comes later in the chain relative, relative-cm, lsjt, jjjt, jjjpn; the file written has the name and the scheme of the target. Every other request is refused, whether or not the files exist.", "quantifier": "all control files, all contents of the source files", "why_tests_cant": "combinations of schemes, cutoffs and malformed lines cannot be enumerated", "anchors": ["programs/relutils/moshinsky.cpp: ReadParameters", "programs/relutils/moshinsky.cpp: main"]}
{"id": "C129", "title": "moshinsky writes the two-body operator of the relative operator", "statement": "From a relative operator with enough quanta, moshinsky writes an H2 file in which every sector has the Wigner-Eckart sum over isospin of jj-coupled elements, these the sum over L and S of LS-coupled ones, and these the sum over relative and centre-of-mass motion of brackets and relative elements; read again, the file gives these values in the normalisation and precision of the format.", "quantifier": "all relative operators with exchange symmetry, truncations up to 84 quanta, output formats", "why_tests_cant": "the chain of four transformations has intermediate truncations and sector orders; a test compares few elements of one operator", "anchors": ["programs/relutils/moshinsky.cpp: main", "libraries/moshinsky/moshinsky_xform.cpp: TransformOperatorRelativeCMLSJTNToTwoBodyLSJTN"]}
{"id": "C130", "title": "moshinsky writes the intermediate operators", "statement": "With targets rel-cm, lsjt and jjjt moshinsky writes, for each isospin component, the operator at that stage of the chain with the labels of the source.", "quantifier": "all relative operators, truncations up to 84 quanta", "why_tests_cant": "each stage has its own space; all sectors of all spaces have to be right", "anchors": ["programs/relutils/moshinsky.cpp: main"]}
{"id": "C131", "title": "moshinsky can be run in two steps", "statement": "Writing a relative-cm file, also one of larger truncation, and continuing from it gives the same H2 file as going directly from the relative file.", "quantifier": "all relative operators, truncations, control files", "why_tests_cant": "sectors of the larger relative-cm space have to be matched with those of the smaller space for all truncations", "anchors": ["programs/relutils/moshinsky.cpp: ReadAndScatter", "programs/relutils/moshinsky.cpp: main"]}
{"id": "C132", "title": "moshinsky reports a source with too few quanta", "statement": "If the source operator has fewer quanta than the target space needs, the run ends with an error.", "quantifier": "all truncations of source and target", "why_tests_cant": "which element first exceeds the source depends on the spaces; without a check the outcome is undefined", "anchors": ["programs/relutils/moshinsky.cpp: main", "libraries/moshinsky/moshinsky_xform.cpp: RelativeCMMatrixLSJTN"]}
{"id": "C133", "title": "ew-gen writes the electric operators of the sources declared", "statement": "For a target E of rank L ew-gen writes the operator of rank L and parity (-1)^L whose elements are those of the source declared for r^L, times the scale factor to the power L, for the nucleons asked for, and zero for the others.", "quantifier": "all control files, orbital spaces, source operators, ranks", "why_tests_cant": "the power, the species and the sector have to be right for every rank, space and source", "anchors": ["programs/obutils/ew-gen.cpp: CalculatePrefactorE", "programs/obutils/ew-gen.cpp: GenerateTargetE"]}
{"id": "C134", "title": "ew-gen writes the magnetic operators of the sources declared", "statement": "For targets Dl and Ds of rank L ew-gen writes the operator of rank L and parity (-1)^(L-1): orbital or spin angular momentum coupled with the solid harmonic of rank L-1, times the scale factor to the power L-1, the coefficient sqrt(L(2L+1)) of the gradient and, for the orbital part, 2/(L+1).", "quantifier": "all control files, orbital spaces, source operators, ranks", "why_tests_cant": "a test of rank one cannot see a factor that is one at rank one", "anchors": ["programs/obutils/ew-gen.cpp: CalculatePrefactorM", "programs/obutils/ew-gen.cpp: GenerateTargetM"]}
{"id": "C135", "title": "ew-gen writes the Fermi and Gamow-Teller operators of the sources declared", "statement": "For a target F ew-gen writes the isospin raising operator declared; for a target GT the operator of rank one that couples spin with isospin raising, summed over all intermediate states.", "quantifier": "all control files, orbital spaces, source operators", "why_tests_cant": "the sum over intermediate states runs over sectors of two operators for every space", "anchors": ["programs/obutils/ew-gen.cpp: GenerateTargetWeak"]}
{"id": "C136", "title": "ew-gen succeeds exactly when the sources fit the targets", "statement": "ew-gen accepts exactly the documented control files. If all sources needed are declared, readable and of the right tensor character on the orbitals given, it writes one file for each target, in order; if a source or the scale factor is missing, or a source is of another character or on other orbitals, it reports an error.", "quantifier": "all control files, all contents of the files named", "why_tests_cant": "missing or mismatched sources come in unbounded combinations", "anchors": ["programs/obutils/ew-gen.cpp: ReadParameters", "programs/obutils/ew-gen.cpp: main"]}
{"id": "C137", "title": "radial-gen writes the kinematic, solid harmonic and radial operators asked for", "statement": "For each target that names a kinematic operator, a solid harmonic or a radial operator radial-gen writes a file of the type and tensor character of that operator, on the orbitals of the last set-ket-basis line before it (or the default), whose elements are normalisation and angular part times the radial integral in the basis of that line.", "quantifier": "all control files, orbital spaces, ranks, orders", "why_tests_cant": "the basis in force depends on the history of lines; every sector of every space has to be right", "anchors": ["programs/obutils/radial-gen.cpp: ReadParameters", "programs/obutils/radial-gen.cpp: BuildOperator"]}
{"id": "C138", "title": "radial-gen writes overlaps between the two bases", "statement": "For a transformation target radial-gen writes a scalar radial file from the orbitals in force to the orbitals of the line, with the overlaps of the radial functions of the two bases at the given ratio of lengths, and the unit matrix when bases and lengths agree.", "quantifier": "all control files, pairs of orbital spaces, length ratios", "why_tests_cant": "bra and ket have different files and bases and can be exchanged without any failure on equal spaces", "anchors": ["programs/obutils/radial-gen.cpp: ReadParameters", "programs/obutils/radial-gen.cpp: BuildOperator"]}
{"id": "C139", "title": "radial-gen writes angular momentum and isospin operators", "statement": "For angular momentum and isospin targets radial-gen writes the operators that are diagonal in n: l, s, j, their squares, isospin projection and ladder operators, on the orbitals in force.", "quantifier": "all control files, orbital spaces", "why_tests_cant": "orbital spaces with gaps in n are not in any test", "anchors": ["programs/obutils/radial-gen.cpp: BuildOperator"]}
{"id": "C140", "title": "radial-gen carries out the documented control files and reports all others", "statement": "A run that succeeds was given a documented control file and wrote one file per target, in order, under the name given; a documented control file whose orbital files can be read succeeds; every other control file ends with an error message.", "quantifier": "all control files", "why_tests_cant": "malformed lines come in unbounded variety", "anchors": ["programs/obutils/radial-gen.cpp: ReadParameters", "programs/obutils/radial-gen.cpp: main"]}
{"id": "C141", "title": "radial-gen followed by ew-gen gives the transition operators", "statement": "If radial-gen writes r^L Y_L (or spin and isospin raising) and ew-gen uses these files as sources, then the file for a target E L (or GT) holds the scale factor to the power L times the printed normalisation, angular part and radial integral for the nucleons asked for (or the coupled product).", "quantifier": "all pairs of control files, orbital spaces, ranks", "why_tests_cant": "the two programs agree on the meaning of the file only by convention", "anchors": ["programs/obutils/radial-gen.cpp: main", "programs/obutils/ew-gen.cpp: main"]}
{"id": "C142", "title": "The NLO magnetic dipole operator stored is the current of one-pion range", "statement": "ConstructNLOM1Operator stores, in every sector of the relative-cm space and for every pair of states, the reduced matrix element of the two-nucleon magnetic dipole operator: the Sachs term, with the centre-of-mass coordinate and the one-pion exchange potential, plus the intrinsic term, times the isovector product, with the regulator and the oscillator lengths given; components other than isospin one are zero; other labels are reported.", "quantifier": "all truncations, states, regulators, oscillator lengths", "why_tests_cant": "nine recoupled terms add up to one vector formula only in the sum; a wrong coefficient gives a plausible number", "anchors": ["libraries/relative/lenpic_relcm_me.cpp: ConstructNLOM1Operator", "libraries/relative/lenpic_relcm_me.h", "libraries/relative/lenpic_constants.h"]}
{"id": "C143", "title": "relcm-gen carries out its control file", "statement": "relcm-gen accepts exactly the documented control files. For LENPIC-NLOM1 it writes, to the file named, the operator of the truncation, labels, regulator, oscillator length and number of integration steps given, in the sectors allowed by them; other operators and labels are reported and nothing is written.", "quantifier": "all control files", "why_tests_cant": "the parameters meet in the integrals; that one of them has no effect is seen only by comparing runs", "anchors": ["programs/relutils/relcm-gen.cpp: ReadParameters", "programs/relutils/relcm-gen.cpp: PopulateOperator", "programs/relutils/relcm-gen.cpp: main"]}
{"id": "C144", "title": "moshinsky transforms any operator on relative and centre-of-mass motion", "statement": "From a relative-cm file, moshinsky writes the two-body matrix elements of the operator in the file, in LS, jj or proton-neutron coupling: for every pair of two-body states the sum over relative and centre-of-mass motion of brackets and elements of the operator, recoupled, whether or not the operator conserves the centre-of-mass motion.", "quantifier": "all operators with the symmetry of exchange, truncations up to 84 quanta, isospin components, formats", "why_tests_cant": "operators from relative files never change the centre-of-mass motion, so that tests by that route leave these elements zero", "anchors": ["programs/relutils/moshinsky.cpp: main", "programs/relutils/moshinsky.cpp: ReadAndScatterRelativeCM", "libraries/moshinsky/moshinsky_xform.cpp: TransformOperatorRelativeCMLSJTNToTwoBodyLSJTN"]}
{"id": "C145", "title": "h2stat shows what the file holds", "statement": "For a file into which all sectors of an operator were written, h2stat --matrices shows for every sector, in order, its labels and its full matrix, the part of diagonal sectors which is not stored being completed by symmetry; all modes show a header with the properties of the operator, the numbers of orbitals, the truncation, and the numbers of sectors and stored elements by type and in total; --orbitals and --indexing list the orbitals, subspaces and sectors of the operator.", "quantifier": "all operators, formats 0, 15099 and 15200, binary and text", "why_tests_cant": "what is shown is read by eye; a transposed or unfilled triangle in one sector is not noticed", "anchors": ["programs/h2utils/h2stat.cpp: DoMatrices", "programs/h2utils/h2stat.cpp: DoOrbitals", "programs/h2utils/h2stat.cpp: DoIndexing", "programs/h2utils/h2stat.cpp: main", "libraries/tbme/h2_io.cpp: H2StreamBase::DiagnosticStr"]}
{"id": "C146", "title": "h2stat --verify accepts exactly complete files", "statement": "h2stat --verify ends with success for a file into which all sectors of an operator were written, and with failure for every file that is cut off, wherever, or has data after the last sector.", "quantifier": "all operators, formats, modes and all places of truncation", "why_tests_cant": "a file can be cut at any byte; tests try a few", "anchors": ["programs/h2utils/h2stat.cpp: DoVerify", "libraries/tbme/h2_io.cpp: InH2Stream::InH2Stream", "libraries/tbme/h2_io.cpp: InH2Stream::ReadSector"]}
{"id": "C147", "title": "h2stat accepts only documented arguments", "statement": "h2stat ends with success only without arguments or with --help, when it shows its usage, with the name of a file, or with one of the five documented options and the name of a file, and then shows what that option asks for; options it does not know are refused; arguments after the name are ignored.", "quantifier": "all argument lists and files", "why_tests_cant": "argument lists are unbounded", "anchors": ["programs/h2utils/h2stat.cpp: ProcessArguments", "programs/h2utils/h2stat.cpp: main"]}
{"id": "C148", "title": "radial-extract lists the expansion of every orbital", "statement": "For a transformation file, radial-extract writes one line for each transformed orbital, in the order of the file, holding its quantum numbers, the number of basis orbitals with the same labels, and its coefficients with them in their order; all other coefficients vanish. A file that is not a scalar transformation of radial type, or which cannot be listed in this way, is refused.", "quantifier": "all transformation files, spaces and arguments", "why_tests_cant": "the pairing of subspaces depends on the order of both spaces, which agree in the usual cases", "anchors": ["programs/radialutils/radial-extract.cpp: main", "programs/radialutils/radial-extract.cpp: ProcessArguments"]}
{"id": "C149", "title": "radial-plot tabulates the transformed radial functions", "statement": "For labels which occur in the transformation file, radial-plot writes a table with the radii from zero to the largest in even steps, and for each transformed orbital with these labels the value of its radial function, the combination of the analytic functions with the coefficients of the file.", "quantifier": "all transformation files, spaces, labels, numbers of points", "why_tests_cant": "the tables look right whenever both spaces are indexed alike", "anchors": ["programs/radialutils/radial-plot.cpp: main"]}
{"id": "C150", "title": "radial-plot accepts exactly the documented arguments", "statement": "radial-plot takes nine words: the basis, oscillator or laguerre, the scale, l, j, the species, the number of points, the largest radius, and the names of the files, and makes the plot they ask for; any other command line is refused.", "quantifier": "all command lines", "why_tests_cant": "command lines are unbounded", "anchors": ["programs/radialutils/radial-plot.cpp: ProcessArguments"]}
{"id": "C151", "title": "the natural orbitals can be inspected", "statement": "Run on the transformation written by natorb-gen, radial-extract lists the expansion of the natural orbitals in the orbitals of the run, and radial-plot tabulates their radial functions, up to the rounding of the files.", "quantifier": "all symmetric scalar densities and orbital spaces", "why_tests_cant": "two programs and an eigensolver have to agree on the order of orbitals and subspaces", "anchors": ["programs/radialutils/radial-extract.cpp: main", "programs/radialutils/radial-plot.cpp: main", "programs/obutils/natorb-gen.cpp: main"]}
{"id": "C152", "title": "jpvstat shows the sections of the file", "statement": "For a JPV file, jpvstat shows one report for each section, in order: the fields of its header, the transposition to the upper triangle, the number of values, the cutoffs, the labels, dimensions and places of its subspaces, the place of its sector and the number of elements stored for it.", "quantifier": "all JPV files with channels up to L=99 and J=99; others are refused", "why_tests_cant": "reports are read by eye; a wrong count in one line is not noticed", "anchors": ["programs/relutils/jpvstat.cpp: main", "libraries/relative/jpv_io.cpp: ReadJPVOperator"]}
{"id": "C153", "title": "jpvstat shows exactly the files jpv2rel can read", "statement": "jpvstat shows a file exactly if it is the only argument, can be opened, and is read without error by the reader of jpv2rel into a space of truncation 99; the reporting changes neither what is accepted nor the error. Without arguments or with --help it shows its usage.", "quantifier": "all argument lists and texts", "why_tests_cant": "argument lists and texts are unbounded", "anchors": ["programs/relutils/jpvstat.cpp: ProcessArguments", "programs/relutils/jpvstat.cpp: main", "libraries/relative/jpv_io.cpp: ReadJPVOperator"]}
{"id": "C154", "title": "orbital-gen writes the orbitals asked for", "statement": "orbital-gen --convert writes the orbitals of its input, each as often as there, in the order of weight and the format asked for, so that converting there and back gives the same orbitals. --Nmax writes the orbitals of the oscillator shells up to Nmax of both species, each once, the same as --triangular Nmax 2 1. --triangular writes the orbitals inside the triangle, each once, in the order of weight; it fails if there are none and does not end for coefficients that are not positive.", "quantifier": "all orbital lists, formats, weights and coefficients", "why_tests_cant": "lists are unbounded; loss or repetition of an orbital shows only for some", "anchors": ["programs/obutils/orbital-gen.cpp: main"]}
{"id": "C155", "title": "orbital-gen accepts exactly the documented arguments", "statement": "orbital-gen writes a file exactly for one of the three documented command lines, with numbers where numbers are expected, an input that exists and can be read, and at least one orbital; every other command line ends with failure and nothing is written.", "quantifier": "all command lines and files", "why_tests_cant": "command lines are unbounded", "anchors": ["programs/obutils/orbital-gen.cpp: ProcessArguments", "programs/obutils/orbital-gen.cpp: main"]}
{"id": "C156", "title": "The programs accept the input that the scripts write for them", "statement": "For every choice of parameters, the run script of the worked example calls orbital-gen with arguments it accepts, h2mixer accepts the control file that generate_input writes for it, and jpv2rel accepts the input that jpv2rel.py writes for it.", "quantifier": "all parameters of the example and all tasks of the script, every number format that can be read back", "why_tests_cant": "script and program are written in two languages and changed separately; no test runs the one on the output of the other", "anchors": ["script/manual-example/generate_input.py: run_script", "script/manual-example/generate_input.py: h2mixer_input", "script/jpv2rel.py: convert_jpv2rel", "programs/h2utils/h2mixer.cpp: ReadParameters", "programs/obutils/orbital-gen.cpp: ProcessArguments"]}
{"id": "C157", "title": "The targets of the worked example are the operators they are named after", "statement": "Combined with the coefficients of the control file, the sources r^2, r1.r2, k^2, k1.k2 and the identity give, as operators of A particles: for tbme-Trel the kinetic energy without that of the centre of mass, for tbme-rrel2 the mean square distance from the centre of mass, for tbme-Ncm the number of quanta of the centre of mass in an oscillator of energy hw_cm, and for tbme-H the sum of the first, the interaction, a times the third and the scaled Coulomb interaction. h2mixer reads these coefficients from the lines as they are printed.", "quantifier": "every number of particles, oscillator energies and Lawson coefficient, every representation of the canonical commutation relations", "why_tests_cant": "an identity between operators of arbitrarily many particles; elements at hand agree for wrong coefficients if A is not varied", "anchors": ["script/manual-example/generate_input.py: h2mixer_input", "script/manual-example/generate_input.py: oscillator_length"]}
{"id": "C158", "title": "compare_me flags every difference", "statement": "compare_me shows a line for every row of the first file with the elements of both files that have its labels, their difference and ratio, and flags it exactly if the difference exceeds the threshold; if no line is flagged the two files agree within the threshold on every set of labels.", "quantifier": "all files, conversions and thresholds", "why_tests_cant": "the property concerns what is not shown", "anchors": ["validation/compare_me.py: read_me_file", "validation/compare_me.py: compare_matrix_elements"]}
{"id": "C159", "title": "partitioning_formatter keeps the entries and breaks the lines by weight", "statement": "partitioning_formatter writes the header and the entries of the partitioning in their order, so that they can be read again, one line for each run of orbitals of equal weight; it refuses orbital files of another format or with another number of orbitals.", "quantifier": "all orbital files, headers and texts", "why_tests_cant": "texts are unbounded; entries run together only from a certain length on", "anchors": ["script/partitioning_formatter.py"]}
{"id": "C160", "title": "V_Daejeon16 returns the element of the table of its channel", "statement": "For every channel with J up to 6 and all states of up to 60 quanta, V_Daejeon16 returns, in MeV, the number in the row and column of the two states in the table named after the channel; between states of more quanta, and for labels that are not those of a channel, it returns zero; it never reads outside a table.", "quantifier": "all channels, all radial quantum numbers, all other labels", "why_tests_cant": "38 branches and 26 thousand numbers; a branch with a wrong table, offset or bound shows only for the labels concerned", "anchors": ["contrib/Daejeon16/Daejeon16_public_v2.f90: V_Daejeon16"]}
{"id": "C161", "title": "The Daejeon16 interaction is Hermitian and its conventions are those documented", "statement": "V_Daejeon16 is symmetric under exchange of bra and ket, for all arguments; with keyhw=0 all elements are those in MeV divided by 25, and with keyph=1 they are those between states multiplied by (-1)^n.", "quantifier": "all arguments", "why_tests_cant": "the tables are typed in full, so that symmetry depends on each of the numbers", "anchors": ["contrib/Daejeon16/Daejeon16_public_v2.f90: V_Daejeon16"]}
{"id": "C162", "title": "relative-gen writes the Daejeon16 interaction", "statement": "Built with USE_DAEJEON16, for the operator interaction Daejeon16 with J0=g0=T0min=0, relative-gen writes the elements of the interaction in the isoscalar component, in every sector of the space up to Nmax quanta and J up to 6, and zero in the others, with this largest J in the header; other labels are refused, and every other control file gives the same as without Daejeon16, where the interaction is refused.", "quantifier": "all control files and truncations", "why_tests_cant": "the program with this option is not built by default", "anchors": ["contrib/Daejeon16/Daejeon16_wrapper.cpp: ConstructDaejeon16Operator", "programs/relutils/relative-gen.cpp: PopulateOperator", "programs/relutils/relative-gen.cpp: ReadParameters"]}
{"id": "C163", "title": "obdme-compare accepts densities exactly if they agree up to a sign", "statement": "For two densities of the same parity and isospin, the comparison succeeds exactly if there is one overall sign with which every element, between states and for multipoles that both have, agrees within the tolerance or is negligible in both; otherwise it ends with failure, and densities of different parity or isospin are refused.", "quantifier": "all densities that can be read and tolerances", "why_tests_cant": "the sign is determined by the first element that matters; the elements compared depend on space and multipoles", "anchors": ["programs/obutils/obdme-compare_test.cpp: main"]}
{"id": "C164", "title": "Moshinsky brackets are overlaps of oscillator states", "statement": "For all quantum numbers the value the bracket code returns is the scalar product of the state of relative motion (c1-c2)/sqrt2 and centre-of-mass motion (c1+c2)/sqrt2, with radial functions positive at the origin and angular momenta coupled to Lambda in this order, with the state of the two particles coupled to Lambda, for every projection.", "quantifier": "all arguments within the table of factorials, all sequences of calls, all orders of summation", "why_tests_cant": "a statement about polynomials in six variables of any degree; phases and factors common to all brackets of a test go unnoticed", "anchors": ["libraries/moshinsky/moshinsky_bracket.cpp: MoshinskyBracket", "libraries/moshinsky/moshinsky_bracket.cpp: SeedMoshinskyBracket", "libraries/moshinsky/moshinsky_bracket.cpp: MoshinskyACoefficient"]}
{"id": "C165", "title": "The Moshinsky brackets form an orthogonal matrix", "statement": "For each angular momentum Lambda the brackets between the states of relative and centre-of-mass motion and the states of two particles, as the code computes them, form an orthogonal matrix: products of two rows summed over all columns, and of two columns summed over all rows, give one or zero. No bracket exceeds one.", "quantifier": "all states, all Lambda, all numbers of quanta", "why_tests_cant": "a test can sum squares of a few rows; that the set of columns is complete in every shell is a statement about all shells", "anchors": ["libraries/moshinsky/moshinsky_bracket.cpp: MoshinskyBracket", "libraries/moshinsky/moshinsky_xform.cpp: TransformationMatrixRelativeCMTwoBodyLSJTN"]}
{"id": "C166", "title": "The Moshinsky transformation returns the operator between antisymmetrised states", "statement": "Given the matrices of any linear operator between states of relative and centre-of-mass motion, TransformOperatorRelativeCMLSJTNToTwoBodyLSJTN returns the matrices of this operator between the states (1-P)/sqrt2 of two nucleons; these are orthogonal with norm squared one, or two for equal orbitals. The identity goes to the identity and products of operators to products.", "quantifier": "all operators, truncations up to 84 quanta, sectors, projections", "why_tests_cant": "the factor sqrt2, the restriction of the sum to antisymmetric relative motion and the norm for equal orbitals are conventions that cancel or not depending on the operator", "anchors": ["libraries/moshinsky/moshinsky_xform.cpp: TransformationMatrixRelativeCMTwoBodyLSJTN", "libraries/moshinsky/moshinsky_xform.cpp: TwoBodyMatrixLSJTN", "libraries/moshinsky/moshinsky_xform.cpp: TransformOperatorRelativeCMLSJTNToTwoBodyLSJTN"]}
{"id": "C167", "title": "The chain to jj coupling returns the operator between antisymmetrised states of two nucleons", "statement": "If the matrices given to the transformations from relative-cm to LS and from LS to jj coupling are, up to a factor, those of a linear operator on states of two nucleons with spin and isospin, the elements returned are, up to the same factor, those of the operator between antisymmetrised states in which the orbital angular momentum and spin of each nucleon are coupled first.", "quantifier": "all operators, states, projections", "why_tests_cant": "the order of coupling of spin and orbit, the arguments of the nine-j symbols and the factors of antisymmetrisation are conventions; a test compares with another implementation of the same formula", "anchors": ["libraries/moshinsky/moshinsky_xform.cpp: TwoBodyMatrixLSJTN", "libraries/moshinsky/moshinsky_xform.cpp: TransformationMatrixTwoBodyLSJTNToTwoBodyJJJTN", "libraries/moshinsky/moshinsky_xform.cpp: TransformOperatorTwoBodyLSJTNToTwoBodyJJJTN"]}
{"id": "C168", "title": "The relative-cm elements are those of the operator acting on the relative motion", "statement": "For every operator of angular momentum J0 and isospin T0 that acts on relative motion, spin and isospin only and has the given reduced elements, in Rose's convention, the formula of RelativeCMMatrixLSJTN is its reduced element between states of relative and centre-of-mass motion coupled to L, S and J.", "quantifier": "all operators, reduced elements, states, projections", "why_tests_cant": "a statement about all operators and projections; it needs the meaning of the recoupling coefficients", "anchors": ["libraries/moshinsky/moshinsky_xform.cpp: RelativeCMMatrixLSJTN"]}
{"id": "C169", "title": "moshinsky writes the matrix elements of the operator between states of two nucleons", "statement": "For every operator on the relative motion of two nucleons whose reduced elements are in the relative file, the H2 file that moshinsky writes in the jjjpn coupling, when opened again, holds for every sector and pair of stored states the reduced element of this operator between the normalised antisymmetrised states of two protons, two neutrons or a proton and a neutron, up to rounding to single precision and values below 1e-14, which become zero.", "quantifier": "all operators, truncations up to 84 quanta, formats, projections", "why_tests_cant": "end-to-end statement from states in first quantisation to the bytes of a file", "anchors": ["programs/relutils/moshinsky.cpp: main", "libraries/moshinsky/moshinsky_xform.cpp: TransformOperatorRelativeLSJTToRelativeCMLSJTN", "libraries/moshinsky/moshinsky_xform.cpp: TwoBodyMatrixJJJPN", "libraries/tbme/h2_io.cpp: OutH2Stream::WriteSector"]}
{"id": "C170", "title": "The states of the proton-neutron basis are orthonormal", "statement": "With the factor 1/sqrt(1+delta) by which elements are multiplied when they are written, the antisymmetrised states of two nucleons in oscillator orbitals, listed with the first orbital not after the second for like nucleons, are orthonormal; like nucleons in equal orbitals with odd J are not listed and have no state.", "quantifier": "all orbitals, angular momenta, projections and species", "why_tests_cant": "phases and factors of normalisation for equal orbitals, and for unlike nucleons, are independent of any element tested", "anchors": ["libraries/tbme/h2_io.cpp: OutH2Stream::WriteSector", "libraries/moshinsky/moshinsky_xform.cpp: TwoBodyMatrixJJJPN"]}
{"id": "C171", "title": "moshinsky writes the matrix elements of operators on relative and centre-of-mass motion", "statement": "For every operator on the relative and centre-of-mass motion of two nucleons, also one that changes the centre-of-mass motion, whose elements are in the relative-cm file, the H2 file that moshinsky writes in the jjjpn coupling, when opened again, holds for every sector and pair of stored states the reduced element of this operator between the normalised antisymmetrised states of two protons, two neutrons or a proton and a neutron, up to rounding to single precision and values below 1e-14, which become zero.", "quantifier": "all operators, truncations up to 84 quanta, formats, projections", "why_tests_cant": "end-to-end statement from states in first quantisation to the bytes of a file; operators that change the centre-of-mass motion do not come from relative files", "anchors": ["programs/relutils/moshinsky.cpp: main", "programs/relutils/moshinsky.cpp: ReadAndScatterRelativeCM", "libraries/moshinsky/moshinsky_xform.cpp: TransformOperatorRelativeCMLSJTNToTwoBodyLSJTN", "libraries/moshinsky/moshinsky_xform.cpp: TwoBodyMatrixJJJPN", "libraries/tbme/h2_io.cpp: OutH2Stream::WriteSector"]}
{"id": "C172", "title": "From the name of an operator to the H2 file", "statement": "If relative-gen is asked by name for an operator it builds, with labels and truncation that belong to it, it writes a relative file, and moshinsky, given that file, writes an H2 file that holds, for every sector and pair of stored states, the reduced element of the operator between normalised antisymmetrised states of two nucleons, up to rounding to single precision and values below 1e-14, which become zero. The operator is given by its elements between products of relative motion, spins and isospins.", "quantifier": "all control files, truncations up to 84 quanta, formats, projections; operators: rsqr, coordinate-sqr r, quadrupole r, orbital, spin, isospin, su4casimir, LENPIC-LOGT", "why_tests_cant": "two programs with separate conventions for phases, reduced elements and truncations must agree with each other and with the operator; a test of one program assumes the convention of the other", "anchors": ["programs/relutils/relative-gen.cpp: PopulateOperator", "programs/relutils/relative-gen.cpp: main", "programs/relutils/moshinsky.cpp: main", "libraries/tbme/h2_io.cpp: OutH2Stream::WriteSector"]}
{"id": "C173", "title": "The named operators are those of the positions, momenta, spins and isospins of two nucleons", "statement": "The numbers in the H2 file written by moshinsky from the file of relative-gen for rsqr, coordinate-sqr r, quadrupole r, orbital, spin, isospin, su4casimir and LENPIC-LOGT are, up to rounding to single precision and values below 1e-14, the reduced elements of (x1-x2)^2 in units of the oscillator length of a nucleon, of half of r^2 Y2 for r = x1-x2 (products of two components of r; component zero is sqrt(5/16 pi)(3 z^2 - r^2)), of (x1-x2) x (p1-p2)/2, of s1+s2, of t1+t2, of the sum of squares of the generators of SU(4), and of -1.29 times the sum of s tau, on the two nucleons, times tau1+tau2 for the isovector ones.", "quantifier": "all control files, truncations up to 84 quanta, formats, projections", "why_tests_cant": "the operators are defined by multiplication with and differentiation by the coordinates of the nucleons, not by formulas for matrix elements; units of length and phases of spherical components enter", "anchors": ["programs/relutils/relative-gen.cpp: PopulateOperator", "libraries/relative/relative_me.cpp: ConstructCoordinateSqr", "libraries/relative/relative_me.cpp: ConstructQuadrupoleOperator", "libraries/relative/relative_me.cpp: ConstructOrbitalAMOperator", "libraries/relative/relative_me.cpp: ConstructSpinAMOperator", "programs/relutils/moshinsky.cpp: main"]}
{"id": "C174", "title": "Separable sources of h2mixer are operators on two nucleons", "statement": "For every tensor operator U on one nucleon whose reduced elements are stored, A-1 times the elements that UpgradeOneBodyOperatorJJJPN returns are, in Rose's convention and at all projections, the reduced elements of U(1)+U(2) between the antisymmetrised states of two nucleons; for two tensor operators X and Y the elements that RacahReduceTensorProductJJJPN returns are those of the coupled product of X on the first and Y on the second nucleon. The recoupling factors are those of SU(2), not assumed to have any property. The two-body states change sign when the nucleons are exchanged.", "quantifier": "all spaces of one nucleon with orthonormal states, all operators, ranks, sectors, projections, A", "why_tests_cant": "a statement about all operators and projections; the recoupling factors and phases are conventions shared by code and test", "anchors": ["libraries/tbme/tbme_separable.cpp: UpgradeOneBodyOperatorJJJPN", "libraries/tbme/tbme_separable.cpp: RacahReduceTensorProductJJJPN", "programs/h2utils/h2mixer.cpp: OperatorUChannel::PopulateSourceMatrix", "programs/h2utils/h2mixer.cpp: OperatorVChannel::PopulateSourceMatrix"]}
{"id": "C175", "title": "The named one-body operators of h2mixer and obmixer are operators on a nucleon", "statement": "The reduced elements that the names identity, l, s, j, l2, s2, j2, tz, t+, t-, c+ and c give, and for oscillator functions those of r, ik, r.r and ik.ik in obmixer, are those of operators on the motion, spin and isospin of one nucleon: the identity, the angular momenta and their squares, the projection and ladders of the isospin (t+ makes a proton), the creation and annihilation of a quantum, and the position, the gradient and their squares, in units given by the oscillator length. r and ik carry the ratio of the square root of two to the literal of the program. The U and V sources made from operators with a meaning hold elements of the corresponding operators on two nucleons.", "quantifier": "all orbital spaces, orbitals, projections, components, oscillator lengths", "why_tests_cant": "the operators are defined by multiplication with and differentiation by coordinates and by matrices for spin and isospin; phases of spherical components, the convention of reduced elements and the sign of the radial functions enter", "anchors": ["programs/h2utils/h2mixer.cpp: OneBodyBuiltinChannel", "programs/obutils/obmixer.cpp: OneBodyGeneratedChannel", "libraries/obme/obme.cpp: LadderOneBodyOperator", "libraries/obme/obme.cpp: AngularMomentumOneBodyOperator", "libraries/obme/obme.cpp: IsospinOneBodyOperator", "libraries/obme/obme.cpp: SolidHarmonicOneBodyOperator", "libraries/analytic/radial_oscillator_me.h: CoordinateOscillatorMatrixElement"]}
{"id": "C176", "title": "The one-body sources of a control file mean operators on a nucleon", "statement": "If each file read stands for a tensor operator on one nucleon, every one-body source declared in a control file stands for one: a name for the operator of that name, a linear combination for the combination of operators, a product for the coupled product of the two tensor operators, with the first factor to the left and the states of the orbitals in between, and a transformed source for the same operator between the states that the transformation makes. obmixer writes for each target the reduced elements of its operator between the orbitals of the target, up to the number format, and zero where an orbital does not belong to the operator. The recoupling factor is that of SU(2), with no property assumed.", "quantifier": "all control files, orbital spaces, files, nestings of declarations, projections, components", "why_tests_cant": "declarations nest to any depth; order of factors and conventions of coupling are not visible in scalar cases; the operators are defined apart from their matrix elements", "anchors": ["programs/h2utils/h2mixer.cpp: OneBodyTensorProductChannel::ConstructOneBodyOperatorData", "programs/h2utils/h2mixer.cpp: OneBodyXformChannel::ConstructOneBodyOperatorData", "programs/obutils/obmixer.cpp: OneBodyLinearCombinationChannel::ConstructOneBodyOperatorData", "programs/obutils/obmixer.cpp: OneBodyTensorProductChannel::ConstructOneBodyOperatorData", "programs/obutils/obmixer.cpp: OneBodyXformChannel::ConstructOneBodyOperatorData", "programs/obutils/obmixer.cpp: main", "libraries/obme/obme.cpp: OneBodyOperatorTensorProduct"]}
{"id": "C177", "title": "h2mixer writes the elements of operators on two nucleons", "statement": "If each file read stands for a tensor operator, on one nucleon for one-body files and on two for H2 files, every two-body source declared in a control file stands for an operator on two nucleons: a U source for (U(1)+U(2))/(A-1), a V source for the factor times the coupled product of X on the first and Y on the second nucleon, identity for 2/(A(A-1)), an H2 file for its operator, and a transformed file for the operator it holds between states of which those of the target are combinations. h2mixer then writes for each target, values below the tolerance being set to zero, the reduced elements of the combination of these operators between the normalised antisymmetrised states of two nucleons in the orbitals of the target. If all files open and the one-body operators can be built, it ends well.", "quantifier": "all control files, orbital spaces, files, nestings of one-body declarations, targets, sectors, projections, components", "why_tests_cant": "the operators are defined apart from their matrix elements, on states of two nucleons with motion, spin and isospin; the elements pass through declarations, files, two indexings, a transformation and a sum, each with conventions that a test would share", "anchors": ["programs/h2utils/h2mixer.cpp: main", "programs/h2utils/h2mixer.cpp: OperatorUChannel::PopulateSourceMatrix", "programs/h2utils/h2mixer.cpp: OperatorVChannel::PopulateSourceMatrix", "programs/h2utils/h2mixer.cpp: TwoBodyInputChannel::PopulateSourceMatrix", "programs/h2utils/h2mixer.cpp: TwoBodyXformChannel::PopulateSourceMatrix", "programs/h2utils/h2mixer.cpp: GenerateTargetMatrix"]}
{"id": "C178", "title": "Two routes to the same operator give the same numbers", "statement": "An operator asked for by name from relative-gen and passed through moshinsky, and the same operator as a target of h2mixer whose sources add up to it, written with operators on one nucleon, give the same numbers: for states of two nucleons in the same orbitals, coupled to the same angular momentum, the number read back from the file of moshinsky and the number in the target of h2mixer come from one number, the first by rounding to single precision (values below 1e-14 becoming zero) and the second by setting values below the tolerance to zero. The squared distance is r1^2+r2^2 less twice the scalar product of r1 and r2, and likewise for the other names.", "quantifier": "all control files of the three programs, truncations up to 84 quanta, formats, targets, sectors, pairs of states; operators: rsqr, coordinate-sqr r, quadrupole r, orbital, spin, isospin, su4casimir, LENPIC-LOGT, all isospin projections", "why_tests_cant": "one route goes through relative motion, Moshinsky brackets and LSJT coupling, the other through one-body elements in jj coupling; agreement for all states needs both to be exact for the operator, and a test compares finitely many numbers", "anchors": ["programs/relutils/relative-gen.cpp: PopulateOperator", "programs/relutils/moshinsky.cpp: main", "programs/h2utils/h2mixer.cpp: main", "libraries/tbme/tbme_separable.cpp: UpgradeOneBodyOperatorJJJPN", "libraries/tbme/tbme_separable.cpp: RacahReduceTensorProductJJJPN", "libraries/moshinsky/moshinsky_xform.cpp: TwoBodyMatrixJJJPN"]}
{"id": "C179", "title": "The Coulomb operator in the H2 file acts between the nucleons that were asked for", "statement": "If relative-gen is asked for the Coulomb operator between protons (components T0 = 0, 1, 2), between neutrons (likewise) or between all nucleons (T0 = 0), the H2 file that moshinsky writes from its file holds in the sectors of these pairs, up to rounding to single precision and values below 1e-14, the reduced elements between normalised antisymmetrised states of two nucleons of the operator on their distance whose radial elements are those of the library at unit length divided by the square root of two, and zero in all other sectors.", "quantifier": "all control files, truncations up to 84 quanta, formats, projections, species, numbers of steps", "why_tests_cant": "the operator is spread over three isospin components with coefficients that must fit those by which moshinsky puts them together again; that proton-neutron and neutron-neutron elements vanish is a cancellation of three terms", "anchors": ["programs/relutils/relative-gen.cpp: PopulateOperator", "libraries/relative/relative_me.cpp: ConstructCoulombOperator", "programs/relutils/moshinsky.cpp: main", "libraries/moshinsky/moshinsky_xform.cpp: TwoBodyMatrixJJJPN"]}
{"id": "C180", "title": "An interaction given for pp, nn and pn pairs reaches the H2 file between the right nucleons", "statement": "If three files in the format of J. P. Vary give the matrix elements of a hermitian interaction between protons, between neutrons, and between a proton and a neutron, in channels of the space, jpv2rel writes a relative file; and the H2 file that moshinsky writes from it holds, up to rounding to single precision and values below 1e-14 that are dropped, the reduced elements of that interaction between the normalised antisymmetrised states of two nucleons: that of the pp file for two protons, of the nn file for two neutrons, of the pn file for a proton and a neutron. The same holds of a file with one line per element through pn2rel, and of one file for a charge-independent interaction.", "quantifier": "for all files, truncations, interactions with the elements of the files, sectors of the same charge and states", "why_tests_cant": "The three kinds of pairs are mixed into isospin components by jpv2rel, recoupled one by one by moshinsky, and mixed again in another program with other tables; a wrong sign of the isovector component exchanges pp and nn, and for a nearly charge-independent interaction changes the numbers by less than the usual tolerance.", "anchors": ["programs/relutils/jpv2rel.cpp: main", "programs/relutils/pn2rel.cpp: main", "libraries/relative/jpv_io.cpp: ReadJPVOperatorPN", "programs/relutils/moshinsky.cpp: main", "libraries/moshinsky/moshinsky_xform.cpp: TwoBodyMatrixJJJPN"]}
{"id": "C181", "title": "The identity becomes the unit matrix of the H2 file", "statement": "If relative-gen is asked for the identity, the H2 file that moshinsky writes from its file holds the unit matrix: between two states of two nucleons of given species, in orbitals coupled to a total angular momentum, the element is 1 (rounded to single precision) if the two states are the same, and exactly 0 rounded to single precision otherwise. This holds for one-body and two-body truncations, and whether or not isovector and isotensor components are present.", "quantifier": "all control files, truncations up to 84 quanta, formats, sectors, stored pairs of states", "why_tests_cant": "each element is a sum over relative and centre-of-mass states of products of four recoupling coefficients, isospin factors and normalisations that must add up to one or cancel for every pair of states; a test sees finitely many, within a tolerance", "anchors": ["programs/relutils/relative-gen.cpp: PopulateOperator", "programs/relutils/moshinsky.cpp: main", "libraries/moshinsky/moshinsky_xform.cpp: TransformationMatrixRelativeCMTwoBodyLSJTN", "libraries/moshinsky/moshinsky_xform.cpp: TwoBodyMatrixJJJPN"]}
{"id": "C182", "title": "A unit tensor between two states of the relative motion reaches the H2 file as that operator", "statement": "If relative-gen is asked for symmunit with two states of the relative motion, in canonical order, that the operator connects, it writes a relative file, and the H2 file that moshinsky writes from it holds, up to rounding to single precision and values below 1e-14 that are dropped, the reduced elements, between normalised antisymmetrised states of two nucleons, of the Hermitian operator that has reduced element 1 between the two named states, its conjugate in the other direction, no other elements, and does not act on the centre of mass. This holds for any rank and parity and isospin of the operator.", "quantifier": "all control files, labels of the operator, pairs of states in canonical order, truncations up to 84 quanta, formats, projections, species", "why_tests_cant": "only one element is stored; the other direction is filled in by other code with a phase and a ratio of dimensions that depend on both states, and then spreads over all two-nucleon states", "anchors": ["programs/relutils/relative-gen.cpp: PopulateOperator", "programs/relutils/moshinsky.cpp: main", "libraries/moshinsky/moshinsky_xform.cpp: RelativeCMMatrixLSJTN", "libraries/moshinsky/moshinsky_xform.cpp: TwoBodyMatrixJJJPN"]}
{"id": "C183", "title": "The axial current at N2LO reaches the H2 file as that current between states of two nucleons", "statement": "If relative-gen is asked for LENPIC-N2LOGT with rank 1, positive parity, isospin 1 among its components and a regulator with a known contact constant, it writes a relative file, and the H2 file that moshinsky writes from it holds, up to rounding to single precision and values below 1e-14 that are dropped, the reduced elements of the two-body axial current of one-pion range with its contact term between normalised antisymmetrised states of two nucleons. The current is a Hermitian tensor operator of rank one in angular momentum and isospin, so that the elements the programs do not store follow from those they do.", "quantifier": "all control files, oscillator lengths, regulators, truncations up to 84 quanta, formats, projections, species", "why_tests_cant": "two programs with opposite halves of the matrix stored, cross products of spins that are Hermitian only together with those of isospins, and four recouplings have to agree for every pair of states; there are no reference values", "anchors": ["programs/relutils/relative-gen.cpp: PopulateOperator", "libraries/relative/lenpic_relative_me.cpp: ConstructN2LOGTOperator", "programs/relutils/moshinsky.cpp: main", "libraries/moshinsky/moshinsky_xform.cpp: TwoBodyMatrixJJJPN"]}
{"id": "C184", "title": "The magnetic dipole operator of relcm-gen is Hermitian, and what is written determines all its elements", "statement": "With the coupling coefficients of Condon and Shortley in place of the angular momentum library, a run of relcm-gen for LENPIC-NLOM1 with the labels of an isovector magnetic dipole writes the reduced elements of that operator, for every truncation and every space whose states couple. Exchange of bra and ket reverses the component of the operator with the sign of Condon and Shortley, so that the elements of the sectors which are not written are those written times the ratio of dimensions and phase of a Hermitian operator.", "quantifier": "all control files, regulators, oscillator lengths, truncations, spaces, sectors, states, projections", "why_tests_cant": "the operator is a product of an orbital part that is odd under exchange of bra and ket and of a cross product of isospins that is odd too; a sign in one of seven tensor products would leave each element plausible, and only half of the elements is ever computed", "anchors": ["libraries/relative/lenpic_relcm_me.cpp: ConstructNLOM1Operator", "programs/relutils/relcm-gen.cpp: main"]}
{"id": "C185", "title": "The magnetic dipole operator of relcm-gen reaches the H2 file as that operator between states of two nucleons", "statement": "If relcm-gen is asked for LENPIC-NLOM1 with the labels of an isovector magnetic dipole, it writes a relative-cm file, and the H2 file that moshinsky writes from it holds, up to rounding to single precision and values below 1e-14 that are dropped, the reduced elements between normalised antisymmetrised states of two nucleons of the two-body magnetic dipole operator, both the part on the relative motion and the part that moves the centre of mass, with the radial integrals of the rule the program uses.", "quantifier": "all control files, regulators, oscillator lengths, truncations up to 84 quanta, formats, projections, species", "why_tests_cant": "this operator is the only one for which the centre of mass is not a spectator; two programs that each hold half of the matrix, with the sectors sorted by different labels, and three recouplings have to agree for every pair of states, and there are no reference values", "anchors": ["programs/relutils/relcm-gen.cpp: main", "libraries/relative/lenpic_relcm_me.cpp: ConstructNLOM1Operator", "programs/relutils/moshinsky.cpp: ReadAndScatterRelativeCM", "libraries/moshinsky/moshinsky_xform.cpp: TwoBodyMatrixJJJPN"]}
{"id": "C186", "title": "The oscillator length is the one whose functions are the states of a nucleon in the oscillator", "statement": "For every hw > 0 the radial functions generated with the length OscillatorLength(hw) solve the Schroedinger equation of a nucleon in the oscillator potential of frequency hw, with energy hw (2n + l + 3/2), and no other length does so, for any of the functions and any energy. The lengths sqrt(2) b and b/sqrt(2) that the chiral operators take for relative and centre-of-mass motion are those of the reduced and the total mass at the same frequency. The input script has the same length; the chiral operators are computed with another value of hbar c.", "quantifier": "all hw > 0, all n and l, all lengths, all r > 0", "why_tests_cant": "the recurrence that generates the functions, the constants and the length are in three places; that a function of all r solves a differential equation cannot be seen at sample points", "anchors": ["libraries/tbme/oscillator_parameters.h: OscillatorLength", "libraries/tbme/oscillator_parameters.cpp: kMFDn_hc", "libraries/quadrature/oscillator_wf.h: OscillatorWaveFunction", "libraries/relative/lenpic_relcm_me.cpp: ConstructNLOM1Operator", "script/manual-example/generate_input.py: oscillator_length"]}
