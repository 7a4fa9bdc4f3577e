{
 "claims": [
  {
   "property": "C01",
   "status": "proved",
   "theorems": [
    "Verif.H2.binary_round_trip",
    "Verif.H2.valid_operator_can_be_written"
   ],
   "note": "Formats 0, 15099, 15200; the header is any byte prefix. float conversion is an uninterpreted function."
  },
  {
   "property": "C02",
   "status": "proved",
   "theorems": [
    "Verif.H2.random_access_eq_sequential",
    "Verif.H2.reads_independent_of_history"
   ],
   "note": "Arbitrary file content, arbitrary request history."
  },
  {
   "property": "C03",
   "status": "proved",
   "theorems": [
    "Verif.H2.skip_agrees_with_read",
    "Verif.H2.read_succeeds_where_skip_does"
   ],
   "note": "Same stream state after skip as after read; converse for binary files."
  },
  {
   "property": "C04",
   "status": "proved",
   "theorems": [
    "Verif.H2.fortran_records"
   ],
   "note": "For sector lists grouped by species type with conserved type, which is what the 0/15099 formats are written with."
  },
  {
   "property": "C05",
   "status": "proved",
   "theorems": [
    "Verif.H2.size_by_type_counts_stored",
    "Verif.H2.header_sizes_eq_lines_written",
    "Verif.H2.header_sizes_eq_bytes_written",
    "Verif.H2.fortran_records"
   ],
   "note": ""
  },
  {
   "property": "C06",
   "status": "proved",
   "theorems": [
    "Verif.H2.writer_emits_each_element_once",
    "Verif.H2.reader_never_out_of_bounds"
   ],
   "note": "No out-of-bounds buffer access, each stored element once, row-major."
  },
  {
   "property": "C07",
   "status": "proved",
   "theorems": [
    "Verif.H2.header_round_trip",
    "Verif.H2.header_injective",
    "Verif.H2.jmax_is_maximum"
   ],
   "note": "All three formats, binary and text, for every description whose fields fit the format's int/float fields (Expressible). Text orbital lines are handled by the absent basis library, whose print/parse round trip is a hypothesis."
  },
  {
   "property": "C08",
   "status": "partial",
   "theorems": [
    "Verif.H2.written_file_reads_back_partial",
    "Verif.H2.charge_changing_15099_unreadable",
    "Verif.H2.matrix_mode_unreadable",
    "Verif.H2.huge_15099_binary_unreadable",
    "Verif.H2.huge_15099_text_unreadable",
    "Verif.H2.format0_header_ambiguous"
   ],
   "note": "The full statement is false of the code: counterexample theorems for 15099 with Tz0!=0, .mat mode, 15099 with 2^31 or more elements; format 0 headers are ambiguous. Proved for every Expressible description."
  },
  {
   "property": "C09",
   "status": "proved",
   "theorems": [
    "Verif.H2.text_round_trip",
    "Verif.H2.text_reader_checks_labels"
   ],
   "note": "Decimal formatting/scanning is a parameter r with scan(fmt x)=r x."
  },
  {
   "property": "C10",
   "status": "proved",
   "theorems": [
    "Verif.H2.orbital_numbers_bijective",
    "Verif.H2.labels_identify_element"
   ],
   "note": ""
  },
  {
   "property": "C100",
   "status": "partial",
   "theorems": [
    "Verif.Density.multi_truncated_accepted",
    "Verif.Density.multi_truncated_value",
    "Verif.Density.Ex.truncated"
   ],
   "note": "False of the code: reads are not checked, so a truncated file is accepted and the missing places get the last number."
  },
  {
   "property": "C101",
   "status": "partial",
   "theorems": [
    "Verif.Density.matrixElement_partial",
    "Verif.Density.Ex.other_orbitals_contracted",
    "Verif.Density.Ex.observable_value"
   ],
   "note": "Holds when the operator file has the orbitals of the run; other orbitals are not rejected but contracted position by position."
  },
  {
   "property": "C102",
   "status": "proved",
   "theorems": [
    "Verif.Density.control_line",
    "Verif.Density.obscalc_run"
   ],
   "note": "Printing of numbers is not modelled."
  },
  {
   "property": "C103",
   "status": "proved",
   "theorems": [
    "Verif.Density.natural_orbitals",
    "Verif.Density.occupation_sum",
    "Verif.Density.solver_law",
    "Verif.Density.Ex.space_law"
   ],
   "note": "The eigensolver is assumed to return orthonormal eigenvectors with ascending eigenvalues (met by solver_law); written numbers are chopped and rounded."
  },
  {
   "property": "C104",
   "status": "partial",
   "theorems": [
    "Verif.Density.info_labels_partial",
    "Verif.Density.info_label_missing"
   ],
   "note": "False when the n of a set of orbitals are not 0, 1, 2, ...: the number of the eigenvector is written as n."
  },
  {
   "property": "C105",
   "status": "partial",
   "theorems": [
    "Verif.Density.natorb_line",
    "Verif.Density.natorb_run",
    "Verif.Density.unknown_line_ignored"
   ],
   "note": "All but the rejection of unknown keywords, which are passed over without complaint."
  },
  {
   "property": "C106",
   "status": "partial",
   "theorems": [
    "Verif.Relative.coordinate_sqr_stored",
    "Verif.Relative.momentum_sqr_stored_partial",
    "Verif.Relative.momentum_sqr_wrong",
    "Verif.Relative.space_laws"
   ],
   "note": "Proved for r^2. False of the code for k^2: what is stored are the elements of -k^2. Laws of the absent am library (Clebsch-Gordan, reduction factors) are hypotheses, met by the table Ex.cg (Ex.half, Ex.ls). Met by the Clebsch-Gordan coefficients of SU(2) for every truncation (space_laws)."
  },
  {
   "property": "C107",
   "status": "proved",
   "theorems": [
    "Verif.Relative.orbital_stored",
    "Verif.Relative.space_laws"
   ],
   "note": "Laws of the absent am library are hypotheses, met by Ex.half, Ex.ls. Met by the Clebsch-Gordan coefficients of SU(2) for every truncation (space_laws)."
  },
  {
   "property": "C108",
   "status": "proved",
   "theorems": [
    "Verif.Relative.spin_stored",
    "Verif.Relative.gamow_teller_stored",
    "Verif.Relative.space_laws"
   ],
   "note": "Laws of the absent am library are hypotheses, met by Ex.half, Ex.ls. Met by the Clebsch-Gordan coefficients of SU(2) for every truncation (space_laws)."
  },
  {
   "property": "C109",
   "status": "proved",
   "theorems": [
    "Verif.Relative.isospin_stored",
    "Verif.Relative.space_laws"
   ],
   "note": "Laws of the absent am library are hypotheses, met by Ex.half, Ex.ls. Met by the Clebsch-Gordan coefficients of SU(2) for every truncation (space_laws)."
  },
  {
   "property": "C11",
   "status": "proved",
   "theorems": [
    "Verif.H2.lower_triangle_ignored_on_output",
    "Verif.H2.unstored_zero_on_input"
   ],
   "note": ""
  },
  {
   "property": "C110",
   "status": "proved",
   "theorems": [
    "Verif.Relative.casimir_stored",
    "Verif.Relative.dot_exchange",
    "Verif.Relative.space_laws"
   ],
   "note": "Laws of the absent am library are hypotheses, met by Ex.half, Ex.ls, Ex.halfSym. Met by the Clebsch-Gordan coefficients of SU(2) for every truncation (space_laws)."
  },
  {
   "property": "C111",
   "status": "proved",
   "theorems": [
    "Verif.Relative.coulomb_components",
    "Verif.Relative.coulomb_total_stored",
    "Verif.Relative.coulomb_species",
    "Verif.Relative.coulomb_scale",
    "Verif.Relative.coulomb_refused"
   ],
   "note": "The spline integrator enters with its error (coulomb_scale)."
  },
  {
   "property": "C112",
   "status": "proved",
   "theorems": [
    "Verif.Relative.quadrupole_stored"
   ],
   "note": "The second spherical harmonic enters as any matrix with the reduced element in terms of the 3j symbol."
  },
  {
   "property": "C113",
   "status": "partial",
   "theorems": [
    "Verif.Relative.dipole_stored_partial",
    "Verif.Relative.dipole_defect_wrong",
    "Verif.Relative.dipole_momentum_is_coordinate"
   ],
   "note": "False of the code when the bra has the smaller L (every sector in canonical order with L'=L-1): the stored elements have the factor dipoleDefect. The momentum dipole is half the coordinate dipole."
  },
  {
   "property": "C114",
   "status": "partial",
   "theorems": [
    "Verif.Relative.Intrinsic.r_sqr_intrinsic",
    "Verif.Relative.Intrinsic.k_sqr_intrinsic",
    "Verif.Relative.Intrinsic.kinetic_intrinsic",
    "Verif.Relative.Intrinsic.orbital_intrinsic",
    "Verif.Relative.Intrinsic.dipole_intrinsic",
    "Verif.Relative.Intrinsic.spin_intrinsic",
    "Verif.Relative.Intrinsic.casimir_intrinsic",
    "Verif.Relative.Intrinsic.kinetic_header_quarter",
    "Verif.Relative.Intrinsic.kinetic_header_wrong"
   ],
   "note": "False of the header for the kinetic energy, which comes out a quarter; all others are proved. The coefficient for the quadrupole is left open in the header."
  },
  {
   "property": "C115",
   "status": "partial",
   "theorems": [
    "Verif.Relative.n2lo_stored_partial",
    "Verif.Relative.Axial.c3_cartesian",
    "Verif.Relative.Axial.c4_cartesian",
    "Verif.Relative.Axial.yuk_hessian",
    "Verif.Relative.mesh_integral"
   ],
   "note": "The one-pion-range part is proved (spherical form in n2lo_stored_partial, Cartesian form and potential in the others); the contact term is the one the code has, see C116. Laws of the absent am library are hypotheses, met by Ex.halfx, Ex.halfx12, Ex.n2lo_applies. The spline rule is a parameter."
  },
  {
   "property": "C116",
   "status": "partial",
   "theorems": [
    "Verif.Relative.contact_is_wrong",
    "Verif.Relative.contact_s_wave"
   ],
   "note": "False of the code: nonzero elements for L > 0 and S-wave integrals without the factor sqrt(4 pi) r; the negation is proved."
  },
  {
   "property": "C117",
   "status": "partial",
   "theorems": [
    "Verif.Relative.Gen.control_file",
    "Verif.Relative.Gen.missing_line_refused",
    "Verif.Relative.Gen.missing_line_accepted"
   ],
   "note": "Proved in both directions. The last clause is false of files whose last line has no newline: the last line is then read again (missing_line_accepted)."
  },
  {
   "property": "C118",
   "status": "partial",
   "theorems": [
    "Verif.Relative.Gen.unit_stored",
    "Verif.Relative.Gen.unit_canonical",
    "Verif.Relative.Gen.unit_order_refused_partial",
    "Verif.Relative.Gen.unit_unchecked"
   ],
   "note": "What is written is proved, and that nothing else is accepted. Labels that are not canonical are refused only within one subspace; elsewhere the program goes on with indices that were not found (unit_unchecked)."
  },
  {
   "property": "C119",
   "status": "partial",
   "theorems": [
    "Verif.Relative.Gen.operator_written_partial",
    "Verif.Relative.Gen.momentum_written_partial",
    "Verif.Relative.Gen.dipole_written_partial",
    "Verif.Relative.Gen.coulomb_written",
    "Verif.Relative.Gen.coulomb_labels_refused",
    "Verif.Relative.Gen.n2lo_written_partial",
    "Verif.Relative.Gen.unit_written",
    "Verif.Relative.Gen.unknown_refused",
    "Verif.Relative.Gen.all_channels",
    "Verif.Relative.space_laws"
   ],
   "note": "False of the code for the squared momentum (C106), the dipole (C113) and the contact term (C116); proved for all other names except zero and identity, which the absent basis library constructs. Laws of the am library are hypotheses, met by Gen.Ex.laws. The coulomb clause is for the operator of all pairs. Met by the Clebsch-Gordan coefficients of SU(2) for every truncation (space_laws)."
  },
  {
   "property": "C12",
   "status": "proved",
   "theorems": [
    "Verif.H2.sectors_written_once_in_order",
    "Verif.H2.out_of_order_write_rejected",
    "Verif.H2.valid_operator_can_be_written"
   ],
   "note": ""
  },
  {
   "property": "C120",
   "status": "partial",
   "theorems": [
    "Verif.H2.Convert.converted_partial",
    "Verif.H2.Convert.converted_exact_partial",
    "Verif.H2.Convert.conversion_succeeds",
    "Verif.H2.Convert.reversed_sector_refused",
    "Verif.H2.Convert.run_writes",
    "Verif.H2.Convert.run_writes_nothing",
    "Verif.H2.Convert.unknown_format_refused"
   ],
   "note": "Proved for operators that the requested format can express (C121 says what happens with the others) and for indexings of the absent basis library with distinct labels, the same subspaces in either order and equally many sectors. Output to matrix files is not covered."
  },
  {
   "property": "C121",
   "status": "partial",
   "theorems": [
    "Verif.H2.Convert.charge_changing_conversion_unreadable",
    "Verif.H2.Convert.format0_replaces_orbitals"
   ],
   "note": "False of the code: the negations are proved, for every charge-changing input and every set of orbitals with matching numbers of elements."
  },
  {
   "property": "C122",
   "status": "proved",
   "theorems": [
    "Verif.Relative.Jpv2Rel.control_file",
    "Verif.Relative.Jpv2Rel.isoscalar_written",
    "Verif.Relative.Jpv2Rel.isoscalar_outside_refused",
    "Verif.Relative.Jpv2Rel.file_read",
    "Verif.Relative.Jpv2Rel.file_outside_refused"
   ],
   "note": "Refusal includes targets smaller than the file, although a comment in jpv_io.cpp says such targets are acceptable. Sections that give different values to one element are not covered (the last one is used)."
  },
  {
   "property": "C123",
   "status": "proved",
   "theorems": [
    "Verif.Relative.Jpv2Rel.charge_dependent_written"
   ],
   "note": "As for C122."
  },
  {
   "property": "C124",
   "status": "proved",
   "theorems": [
    "Verif.Relative.Pn2Rel.written",
    "Verif.Relative.Pn2Rel.rows_read",
    "Verif.Relative.Pn2Rel.assigns_iff"
   ],
   "note": "Lines that give different values to one element are not covered (the last one is used)."
  },
  {
   "property": "C125",
   "status": "partial",
   "theorems": [
    "Verif.Relative.Pn2Rel.outside_refused",
    "Verif.Relative.Pn2Rel.arguments_missing",
    "Verif.Relative.Pn2Rel.parity_unchecked",
    "Verif.Relative.Pn2Rel.missing_arguments_unchecked"
   ],
   "note": "Channels outside the space and fewer than two arguments are refused. False of the code otherwise: with two or three arguments a string is built from a null pointer, and a line that changes parity is used with the index of no sector; the negations are proved."
  },
  {
   "property": "C126",
   "status": "proved",
   "theorems": [
    "Verif.Relative.XformProgram.control_file",
    "Verif.Relative.XformProgram.written",
    "Verif.Relative.XformProgram.unit_ratio",
    "Verif.Relative.XformProgram.bad_ratio"
   ],
   "note": "The overlaps for ratios other than one are a parameter (quadrature)."
  },
  {
   "property": "C127",
   "status": "partial",
   "theorems": [
    "Verif.Relative.Filter.written_partial",
    "Verif.Relative.Filter.filter_line_unread",
    "Verif.Relative.Filter.cutoff_ignored"
   ],
   "note": "False of the code: the filter named in the second line is never read, so only identity works; the negation is proved with a witness."
  },
  {
   "property": "C128",
   "status": "proved",
   "theorems": [
    "Verif.Moshinsky.Program.moshinsky_success",
    "Verif.Moshinsky.Program.moshinsky_refusal"
   ],
   "note": "The control file is described independently of the parser (Asks). Parsing of numbers and the text of relative and relative-cm files are parameters."
  },
  {
   "property": "C129",
   "status": "proved",
   "theorems": [
    "Verif.Moshinsky.Program.moshinsky_h2",
    "Verif.Moshinsky.Program.moshinsky_h2_reads_back",
    "Verif.Moshinsky.Program.world_h2"
   ],
   "note": "Assumes of the absent libraries: the basis spaces list the admissible states without repetition (shown to be satisfiable for every truncation), the angular-momentum coefficients satisfy the exchange law (derived for Racah coefficients). Above 84 quanta the bracket code leaves the factorial table (C45) and the statement is not made."
  },
  {
   "property": "C13",
   "status": "proved",
   "theorems": [
    "Verif.H2.as_to_nas_factor",
    "Verif.H2.pairNorm_values"
   ],
   "note": ""
  },
  {
   "property": "C130",
   "status": "proved",
   "theorems": [
    "Verif.Moshinsky.Program.moshinsky_relcm",
    "Verif.Moshinsky.Program.moshinsky_lsjt",
    "Verif.Moshinsky.Program.moshinsky_jjjt"
   ],
   "note": "As for C129; the text of the three intermediate formats is not modelled, the operator handed to the writer is."
  },
  {
   "property": "C131",
   "status": "proved",
   "theorems": [
    "Verif.Moshinsky.Program.moshinsky_in_two_steps"
   ],
   "note": "The relative-cm file is assumed to read back the operator that was written."
  },
  {
   "property": "C132",
   "status": "partial",
   "theorems": [
    "Verif.Moshinsky.Program.moshinsky_small_relative_file",
    "Verif.Moshinsky.Program.world_small",
    "Verif.Moshinsky.Program.moshinsky_small_relcm_file"
   ],
   "note": "A relative file with too few quanta ends the run with a failed assertion. False of the code for relative-cm files: a missing subspace is used as an index; the negation is proved for every space and operator that reaches such a subspace."
  },
  {
   "property": "C133",
   "status": "proved",
   "theorems": [
    "Verif.Obme.EwGen.electric_target"
   ],
   "note": "Printing a number to seven digits is a parameter that keeps zero; elements below the threshold of the file format are stored as zero (C53)."
  },
  {
   "property": "C134",
   "status": "partial",
   "theorems": [
    "Verif.Obme.EwGen.magnetic_target_partial",
    "Verif.Obme.EwGen.orbital_target_lost",
    "Verif.Obme.EwGen.orbital_target_differs"
   ],
   "note": "Proved for Ds of every rank and Dl of rank one. False of the code for Dl of rank two or more: 2/(lambda+1) is integer division and the file holds zeros; the negation is proved with a witness."
  },
  {
   "property": "C135",
   "status": "proved",
   "theorems": [
    "Verif.Obme.EwGen.fermi_target",
    "Verif.Obme.EwGen.gamow_teller_target"
   ],
   "note": "As C133."
  },
  {
   "property": "C136",
   "status": "partial",
   "theorems": [
    "Verif.Obme.EwGen.run_succeeds",
    "Verif.Obme.EwGen.run_only",
    "Verif.Obme.EwGen.scale_unset",
    "Verif.Obme.EwGen.character_unchecked"
   ],
   "note": "The accepted control files and the sources they need are described independently of the parser. False of the code: an unset scale factor is an uninitialised number, and the tensor character of a source is not compared with the one wanted; the negations are proved with witnesses."
  },
  {
   "property": "C137",
   "status": "proved",
   "theorems": [
    "Verif.Obme.RadialGen.integral_target"
   ],
   "note": "Solid harmonics of rank at least 0. Radial integrals other than those of first and second order in the oscillator basis, and angular factors, are those of the libraries."
  },
  {
   "property": "C138",
   "status": "proved",
   "theorems": [
    "Verif.Obme.RadialGen.overlap_target"
   ],
   "note": "Overlap integrals are those of the library."
  },
  {
   "property": "C139",
   "status": "partial",
   "theorems": [
    "Verif.Obme.RadialGen.diagonal_target_partial",
    "Verif.Obme.RadialGen.angular_incomplete"
   ],
   "note": "False for orbitals whose subspaces do not list n = 0,1,2,...: the second theorem is a run that refutes it. Squares and projection are proved for all orbitals."
  },
  {
   "property": "C14",
   "status": "proved",
   "theorems": [
    "Verif.H2.mode_from_extension"
   ],
   "note": ""
  },
  {
   "property": "C140",
   "status": "partial",
   "theorems": [
    "Verif.Obme.RadialGen.run_only",
    "Verif.Obme.RadialGen.run_read_orbitals",
    "Verif.Obme.RadialGen.run_succeeds",
    "Verif.Obme.RadialGen.refused_partial",
    "Verif.Obme.RadialGen.unknown_family"
   ],
   "note": "False for lines that name an unknown family of operators: they are accepted and lead to undefined behaviour (last theorem). Success is proved for solid harmonics of rank at least 0."
  },
  {
   "property": "C141",
   "status": "proved",
   "theorems": [
    "Verif.Obme.RadialGen.electric_chain",
    "Verif.Obme.RadialGen.gamow_teller_chain"
   ],
   "note": "Gamow-Teller for orbitals listing n = 0,1,2,..., see C139."
  },
  {
   "property": "C142",
   "status": "proved",
   "theorems": [
    "Verif.Relative.Relcm.nlom1_stored",
    "Verif.Relative.Relcm.m1_cartesian",
    "Verif.Relative.Relcm.rootError_small"
   ],
   "note": "The integrals of the relative motion are those of the spline rule; the centre-of-mass integral is exact up to the decimal square root of two in the code (rootError). The second theorem identifies the coupled operator with the vector formula, for Racah's coefficients."
  },
  {
   "property": "C143",
   "status": "partial",
   "theorems": [
    "Verif.Relative.Relcm.control_file",
    "Verif.Relative.Relcm.relcm_gen_writes",
    "Verif.Relative.Relcm.relcm_gen_labels_refused",
    "Verif.Relative.Relcm.relcm_gen_unknown_refused",
    "Verif.Relative.Relcm.relcm_gen_only",
    "Verif.Relative.Relcm.relcm_gen_steps_ignored"
   ],
   "note": "False of the number of steps, which is read and not used: the mesh always has 3000 points (last theorem). The rest is proved."
  },
  {
   "property": "C144",
   "status": "proved",
   "theorems": [
    "Verif.Moshinsky.Program.moshinsky_relcm_to_h2",
    "Verif.Moshinsky.Program.moshinsky_relcm_reads_back",
    "Verif.Moshinsky.Program.moshinsky_relcm_to_lsjt",
    "Verif.Moshinsky.Program.moshinsky_relcm_to_jjjt"
   ],
   "note": "What ReadAndScatterRelativeCM hands over is given by its elements; reading and scattering are done by the absent basis library."
  },
  {
   "property": "C145",
   "status": "proved",
   "theorems": [
    "Verif.H2.Stat.matrices_show_what_was_written",
    "Verif.H2.Stat.header_shows_operator"
   ],
   "note": "The data shown, not the layout of the output; CompleteLowerTriangle is of the absent mcutils library."
  },
  {
   "property": "C146",
   "status": "partial",
   "theorems": [
    "Verif.H2.Stat.verify_detects_truncation_partial",
    "Verif.H2.Stat.verify_accepts_written",
    "Verif.H2.Stat.verify_rejects_truncated",
    "Verif.H2.Stat.verify_accepts_trailing_data"
   ],
   "note": "Accepts complete files and refuses every truncation (by bytes, or by lines for text files); the rest of the statement is false of the code: data after the last sector is accepted without notice."
  },
  {
   "property": "C147",
   "status": "proved",
   "theorems": [
    "Verif.H2.Stat.success_only_as_documented",
    "Verif.H2.Stat.usage_without_arguments",
    "Verif.H2.Stat.unknown_option_refused",
    "Verif.H2.Stat.further_arguments_ignored"
   ],
   "note": ""
  },
  {
   "property": "C148",
   "status": "partial",
   "theorems": [
    "Verif.Obme.Show.extract_lists_expansions",
    "Verif.Obme.Show.expansion_sum",
    "Verif.Obme.Show.extract_refuses_other",
    "Verif.Obme.Show.extract_refuses_partial",
    "Verif.Obme.Show.extract_missing_labels_undefined",
    "Verif.Obme.Show.extract_arguments"
   ],
   "note": "Listing proved; the refusal is false of the code for files whose ket space has labels that the bra space lacks: the index not found is used (undefined behaviour)."
  },
  {
   "property": "C149",
   "status": "partial",
   "theorems": [
    "Verif.Obme.Show.plot_tabulates_partial",
    "Verif.Obme.Show.gridPoint_ends",
    "Verif.Obme.Show.plot_other_order_undefined",
    "Verif.Obme.Show.plot_other_size_stops",
    "Verif.Obme.Show.plot_unknown_labels_undefined",
    "Verif.Obme.Show.plot_refuses_other",
    "Verif.Obme.Show.plot_run"
   ],
   "note": "Proved when both spaces have the labels at the same place and with the same number of orbitals; otherwise false of the code: the ket subspace is taken to be at the place found in the bra space."
  },
  {
   "property": "C15",
   "status": "proved",
   "theorems": [
    "Verif.Mapping.mapping_same_physical_state",
    "Verif.Mapping.mapping_absent_subspace",
    "Verif.Mapping.mapping_total"
   ],
   "note": "States as vectors of an arbitrary real vector space obeying the exchange law (PairKets); orbital and two-body spaces as delivered by the absent basis library (SpaceWF)."
  },
  {
   "property": "C150",
   "status": "partial",
   "theorems": [
    "Verif.Obme.Show.plot_arguments_partial",
    "Verif.Obme.Show.plot_refuses",
    "Verif.Obme.Show.plot_number_not_checked",
    "Verif.Obme.Show.plot_momentum_cut"
   ],
   "note": "Documented command lines are understood; the refusal is false of the code: words that are no numbers count as zero, and j is cut to a half-integer."
  },
  {
   "property": "C151",
   "status": "proved",
   "theorems": [
    "Verif.Obme.Show.extract_natural_orbitals",
    "Verif.Obme.Show.plot_natural_orbitals"
   ],
   "note": "radial-plot under the hypothesis that the absent basis library orders the subspaces of the sorted orbitals as those of the run."
  },
  {
   "property": "C152",
   "status": "partial",
   "theorems": [
    "Verif.Relative.JpvStat.jpvstat_reports_partial",
    "Verif.Relative.JpvStat.jpvstat_entries_doubled",
    "Verif.Relative.JpvStat.jpvstat_refuses"
   ],
   "note": "All fields of the report are proved except the number of elements: false of the code for sections within one subspace, for which twice the number is shown (jpv_io.cpp 149 lacks the division by two)."
  },
  {
   "property": "C153",
   "status": "proved",
   "theorems": [
    "Verif.Relative.JpvStat.reports_agree",
    "Verif.Relative.JpvStat.jpvstat_arguments",
    "Verif.Relative.JpvStat.jpvstat_usage"
   ],
   "note": "A second argument leaves the name of the file empty, so that the run fails."
  },
  {
   "property": "C154",
   "status": "proved",
   "theorems": [
    "Verif.Count.OrbitalGen.orbgen_convert",
    "Verif.Count.OrbitalGen.orbgen_convert_back",
    "Verif.Count.OrbitalGen.orbgen_Nmax",
    "Verif.Count.OrbitalGen.orbgen_Nmax_triangular",
    "Verif.Count.OrbitalGen.orbgen_triangular"
   ],
   "note": "Reading and writing of orbital files, the oscillator space and the comparison by weight belong to the absent basis library and are hypotheses (RoundTrip, Standard)."
  },
  {
   "property": "C155",
   "status": "proved",
   "theorems": [
    "Verif.Count.OrbitalGen.orbgen_arguments",
    "Verif.Count.OrbitalGen.orbgen_refuses"
   ],
   "note": "Under the hypothesis that the library's comparison is a strict weak order, so that sorting succeeds."
  },
  {
   "property": "C156",
   "status": "partial",
   "theorems": [
    "Verif.Script.example_mixer_lines_partial",
    "Verif.Script.example_settings_partial",
    "Verif.Script.example_orbitals_called",
    "Verif.Script.example_orbitals_refused",
    "Verif.Script.example_mixer_refused",
    "Verif.Script.jpv2rel_script_refused"
   ],
   "note": "False of the code: the scripts are older than the programs. For all parameters orbital-gen refuses --oscillator, h2mixer refuses define-radial-operator and define-source, jpv2rel refuses input without a highest isospin. What remains is proved: h2mixer reads exactly the lines that do not declare sources."
  },
  {
   "property": "C157",
   "status": "proved",
   "theorems": [
    "Verif.Script.example_Trel",
    "Verif.Script.example_rrel2",
    "Verif.Script.example_Ncm",
    "Verif.Script.example_H",
    "Verif.Script.Particles.ladder",
    "Verif.Script.Particles.comm_XP",
    "Verif.Script.example_targets_read"
   ],
   "note": "In every algebra with operators that obey the canonical commutation relations, realised by polynomials. Coefficients are exact until printed; {:e} keeps seven digits, given as the function rnd."
  },
  {
   "property": "C158",
   "status": "partial",
   "theorems": [
    "Verif.Script.Compare.compare_lines",
    "Verif.Script.Compare.compare_no_flag_partial",
    "Verif.Script.Compare.compare_ignores",
    "Verif.Script.Compare.compare_nan"
   ],
   "note": "The lines shown are proved. Agreement without a flag is false of the code: rows with labels only in the second file are ignored, and a difference that is not a number is never flagged. Proved if the labels of the second file occur in the first and all elements are numbers."
  },
  {
   "property": "C159",
   "status": "partial",
   "theorems": [
    "Verif.Script.Partitioning.format_entries",
    "Verif.Script.Partitioning.format_lines",
    "Verif.Script.Partitioning.format_refuses"
   ],
   "note": "Entries can be read again exactly if none of eight or more characters follows another on its line (an iff), which is false of the property for longer ones. An empty line is written first if the first and last weight differ."
  },
  {
   "property": "C16",
   "status": "proved",
   "theorems": [
    "Verif.Mapping.mapping_injective"
   ],
   "note": ""
  },
  {
   "property": "C160",
   "status": "proved",
   "theorems": [
    "Verif.Daejeon.daejeon_element",
    "Verif.Daejeon.daejeon_other"
   ],
   "note": "All 38 branches and 20 tables, transcribed number by number. The rounding of the constants to single precision is a given function with 0 at 0."
  },
  {
   "property": "C161",
   "status": "proved",
   "theorems": [
    "Verif.Daejeon.daejeon_symmetric",
    "Verif.Daejeon.daejeon_conventions"
   ],
   "note": "For all integer arguments; symmetry of the tables is checked by the kernel on all their numbers."
  },
  {
   "property": "C162",
   "status": "proved",
   "theorems": [
    "Verif.Daejeon.daejeon_written",
    "Verif.Daejeon.daejeon_complete",
    "Verif.Daejeon.daejeon_labels_refused",
    "Verif.Daejeon.daejeon_others",
    "Verif.Daejeon.default_refused"
   ],
   "note": "The labels T0 up to 2; beyond that containers overflow (undefined behaviour, as for the other operators)."
  },
  {
   "property": "C163",
   "status": "partial",
   "theorems": [
    "Verif.Density.compare_verdict",
    "Verif.Density.compare_accepts",
    "Verif.Density.compare_agree_partial",
    "Verif.Density.compare_negative",
    "Verif.Density.compare_other_multipoles",
    "Verif.Density.compare_character_refused"
   ],
   "note": "The verdict is characterised exactly; agreement of accepted densities is false of the code for large negative elements (no absolute value in the test for zeros) and for multipoles in one file only, which is proved. The program is not built."
  },
  {
   "property": "C164",
   "status": "proved",
   "theorems": [
    "Verif.Moshinsky.Osc.run_overlaps",
    "Verif.Moshinsky.Osc.bracket_overlap",
    "Verif.Moshinsky.Osc.bracket_overlap_key",
    "Verif.Moshinsky.Osc.seed_overlap",
    "Verif.Moshinsky.Osc.six_sixJ",
    "Verif.Moshinsky.Osc.angularEnv_angular",
    "Verif.Moshinsky.Osc.sixj_determined"
   ],
   "note": "For angular-momentum functions with the defining property of six-j symbols (Angular), which exist (angularEnv_angular) and are determined (sixj_determined). Real numbers for doubles."
  },
  {
   "property": "C165",
   "status": "proved",
   "theorems": [
    "Verif.Moshinsky.Osc.brackets_rows",
    "Verif.Moshinsky.Osc.brackets_columns",
    "Verif.Moshinsky.Osc.bracket_le_one"
   ],
   "note": "For angular-momentum functions with the defining property of six-j symbols (Angular), as in C164."
  },
  {
   "property": "C166",
   "status": "proved",
   "theorems": [
    "Verif.Moshinsky.ls_stage_operator",
    "Verif.Moshinsky.ls_operator",
    "Verif.Moshinsky.antisym_norm",
    "Verif.Moshinsky.ls_identity",
    "Verif.Moshinsky.ls_product"
   ],
   "note": "The operator may depend on the labels it connects, so that it covers reduced elements; it is given as a linear map on the polynomials that represent states (C164). Angular as in C164; spaces as in C129."
  },
  {
   "property": "C167",
   "status": "proved",
   "theorems": [
    "Verif.Moshinsky.jj_operator"
   ],
   "note": "IsNine: am::Unitary9J is the overlap of the two coupling schemes (a sum over projections); nineC_isNine shows that there is such a function. Angular as in C164."
  },
  {
   "property": "C168",
   "status": "proved",
   "theorems": [
    "Verif.Moshinsky.relcm_operator",
    "Verif.Moshinsky.relative_exists"
   ],
   "note": "IsZ, IsRose: the recoupling coefficients of am by sums over projections; realised by zC, roseC. IsRelative is the specification of the operator; relative_exists: every set of reduced elements belongs to an operator."
  },
  {
   "property": "C169",
   "status": "proved",
   "theorems": [
    "Verif.Moshinsky.moshinsky_operator",
    "Verif.Moshinsky.scalar_run",
    "Verif.Moshinsky.scalar_file"
   ],
   "note": "Coefficients: the am library as in C164, C167, C168. Orbital spaces, sectors and H2 header as in C129. scalar_file has no hypotheses on libraries: with the coefficients constructed in NucleonCoeff and a basis library as in ProgramExamples, for every scalar operator a file is written and holds its elements."
  },
  {
   "property": "C17",
   "status": "proved",
   "theorems": [
    "Verif.Mapping.mapping_phase",
    "Verif.Mapping.mapping_round_trip",
    "Verif.Mapping.exchange_law_of_clebsch",
    "Verif.Mapping.exchange_twice"
   ],
   "note": "The exchange law itself is derived from Clebsch-Gordan exchange symmetry and an antisymmetric product."
  },
  {
   "property": "C170",
   "status": "proved",
   "theorems": [
    "Verif.Moshinsky.states_orthonormal"
   ],
   "note": ""
  },
  {
   "property": "C171",
   "status": "proved",
   "theorems": [
    "Verif.Moshinsky.moshinsky_relcm_operator",
    "Verif.Moshinsky.scalar_relcm_file",
    "Verif.Moshinsky.elements_exist"
   ],
   "note": "HasElements is the specification of the operator; elements_exist: every set of elements belongs to an operator. IsNine, Angular as in C167; scalar_relcm_file has no hypotheses on libraries."
  },
  {
   "property": "C172",
   "status": "proved",
   "theorems": [
    "Verif.Moshinsky.gen_moshinsky",
    "Verif.Moshinsky.gen_given"
   ],
   "note": "Operators by name as in C119 (Named), with the true coefficients of SU(2) (space_laws proves the laws asked of the library). Wrote: the numbers in the relative file are read back as they were computed. ActsAs is the specification of the operator; rsqr_file is a run without hypotheses on the libraries."
  },
  {
   "property": "C173",
   "status": "proved",
   "theorems": [
    "Verif.Moshinsky.physical_moshinsky",
    "Verif.Moshinsky.physical_acts",
    "Verif.Moshinsky.rsqr_file",
    "Verif.Moshinsky.motion_distance",
    "Verif.Moshinsky.motion_harmonic",
    "Verif.Moshinsky.harmonic2_top",
    "Verif.Moshinsky.harmonic2_zero",
    "Verif.Moshinsky.motion_angular",
    "Verif.Moshinsky.casimir_acts"
   ],
   "note": "r^2 Y2 is defined by products of components of the separation (harmonic2; harmonic2_top and harmonic2_zero give components without coefficients), motion_harmonic finds its elements. rsqr_file: two runs from control files to elements of the square of the distance, no hypotheses but that the library holds the coefficients of SU(2)."
  },
  {
   "property": "C174",
   "status": "proved",
   "theorems": [
    "Verif.Separable.upgrade_nucleons",
    "Verif.Separable.product_nucleons",
    "Verif.Separable.nas_antisymmetric",
    "Verif.Separable.exchange_law",
    "Verif.Mixer.upgrade_source_nucleons",
    "Verif.Mixer.product_source_nucleons"
   ],
   "note": "Components states the theorem of Wigner and Eckart for the one-body operator and orbitals of the space; Orthonormal is asked for U only. The factors of am/racah_reduction.h are those of SU(2) (amS). OneNucleon.lean has a realisation by harmonic oscillator states with spin and isospin."
  },
  {
   "property": "C175",
   "status": "partial",
   "theorems": [
    "Verif.Mixer.builtin_means",
    "Verif.Mixer.builtin_means_partial",
    "Verif.Mixer.generated_means",
    "Verif.Mixer.generated_builtin",
    "Verif.Mixer.upgrade_source_means",
    "Verif.Mixer.product_source_means"
   ],
   "note": "builtin_means covers identity, l2, s2, j2, tz, c+, c and generated_means r, ik, r.r, ik.ik in every good space. Missing: l, s, j, t+ and t- (builtin_means_partial) only in spaces whose subspaces list n = 0, 1, 2, ...; in others the code pairs the orbitals by position, see C67. The factors of am/rme.h are the reduced elements in Rose's convention (trueCrme, trueRme), computed from SU(2)."
  },
  {
   "property": "C176",
   "status": "partial",
   "theorems": [
    "Verif.Mixer.Control.denotes_built",
    "Verif.Mixer.Control.obmixer_denotes",
    "Verif.Mixer.linear_means",
    "Verif.Mixer.product_means",
    "Verif.Mixer.xform_means",
    "Verif.SU2.product_recoupling"
   ],
   "note": "The meaning of a declaration is the inductive Control.Denotes. Missing: l, s, j, t+ and t- only in spaces whose subspaces list n = 0, 1, 2, ... (C67, C175), kinematic and generated operators only for oscillator functions, and solid harmonics other than the named ones have no meaning here. trueW, trueCrme and trueRme are the coefficients of SU(2) by sums over projections."
  },
  {
   "property": "C177",
   "status": "partial",
   "theorems": [
    "Verif.Mixer.Control.h2mixer_denotes",
    "Verif.Mixer.Control.h2mixer_ends",
    "Verif.Mixer.Control.denotes2_channel",
    "Verif.Mixer.input_reduced",
    "Verif.Mixer.xform_reduced",
    "Verif.Mixer.identity_reduced"
   ],
   "note": "The meaning of a two-body declaration is the inductive Control.Denotes2, that of a one-body declaration Control.Denotes (C176, with the restrictions given there). An H2 file must hold every pair of states asked of it (Covers), and a transformed one every pair of orbitals of its space (Complete2): outside, the program puts zero. The built-in source loop-test has no meaning. Names of two-body sources are distinct."
  },
  {
   "property": "C178",
   "status": "proved",
   "theorems": [
    "Verif.Mixer.Control.routes_agree",
    "Verif.Mixer.Control.reduced_agree",
    "Verif.Mixer.separates_joins",
    "Verif.Mixer.joined_nas",
    "Verif.Mixer.joined_element",
    "Verif.Mixer.Control.Ex3.rsqr_routes"
   ],
   "note": "The operators written with one-body operators are the inductive Separates, by their formulas; separates_joins proves that each is the operator on positions, momenta, spins and isospins of C173. That the sources of the target add up to it is a hypothesis on the control file, met in Control.Ex3.rsqr_routes by r and r.r from obmixer. r carries the ratio of the square root of two to the literal of the program, so the weight of the product has to compensate it. For quadrupole the one-body operator of rank two is a source by its file (input) or by a product."
  },
  {
   "property": "C179",
   "status": "proved",
   "theorems": [
    "Verif.Moshinsky.coulomb_moshinsky",
    "Verif.Moshinsky.coulomb_given",
    "Verif.Moshinsky.coulomb_relative",
    "Verif.Moshinsky.among_sum",
    "Verif.Moshinsky.among_element",
    "Verif.Moshinsky.coulomb_file",
    "Verif.Moshinsky.central_exists"
   ],
   "note": "The radial integrals of 1/r are a parameter of the library, assumed symmetric; C111 (coulomb_scale) bounds their error. The operator is any linear map with these radial elements between states of up to N2max quanta that leaves the rest of the motion as it is; central_exists shows that there is one."
  },
  {
   "property": "C18",
   "status": "proved",
   "theorems": [
    "Verif.Mapping.mapping_flags_exact"
   ],
   "note": ""
  },
  {
   "property": "C180",
   "status": "proved",
   "theorems": [
    "Verif.Moshinsky.interaction_moshinsky",
    "Verif.Moshinsky.pn_interaction_moshinsky",
    "Verif.Moshinsky.isoscalar_moshinsky",
    "Verif.Moshinsky.charged_moshinsky",
    "Verif.Moshinsky.charged_given",
    "Verif.Moshinsky.interaction_scalar",
    "Verif.Moshinsky.partRME_sum",
    "Verif.Moshinsky.interaction_file",
    "Verif.Moshinsky.interaction_exists"
   ],
   "note": "An interaction is any linear map with the elements of the files between states of relative motion of up to N2max quanta, the centre-of-mass motion being a spectator; interaction_exists shows that there is one, interaction_file that all hypotheses are met by runs of the two programs."
  },
  {
   "property": "C181",
   "status": "proved",
   "theorems": [
    "Verif.Moshinsky.identity_moshinsky",
    "Verif.Moshinsky.named_identity_moshinsky",
    "Verif.Moshinsky.identity_relative",
    "Verif.Moshinsky.identity_written",
    "Verif.Moshinsky.unit_given",
    "Verif.Moshinsky.identity_file"
   ],
   "note": "The identity operator of the absent basis library is assumed to be unit matrices in the isoscalar component (MakesIdentity), and its spaces to list like pairs in canonical order (Canonical); identity_file shows that all hypotheses are met by runs of the two programs."
  },
  {
   "property": "C182",
   "status": "proved",
   "theorems": [
    "Verif.Moshinsky.symmunit_moshinsky",
    "Verif.Moshinsky.unit_holds",
    "Verif.Moshinsky.symmUnit_relative",
    "Verif.Moshinsky.symmUnit_exists",
    "Verif.Moshinsky.swap_conjugate",
    "Verif.Moshinsky.symmunit_file"
   ],
   "note": "symmunit_file shows that all hypotheses are met by runs of the two programs, for the operator of a test of the repository; pairs of states in the other order are C118 (refused or undefined)."
  },
  {
   "property": "C183",
   "status": "partial",
   "theorems": [
    "Verif.Moshinsky.axial_moshinsky_partial",
    "Verif.Moshinsky.stored_moshinsky",
    "Verif.Moshinsky.axial_file_partial",
    "Verif.Moshinsky.acts_exists",
    "Verif.Relative.current_tensor",
    "Verif.Relative.current_hermitian",
    "Verif.Relative.half_laws12",
    "Verif.Relative.tensor_laws",
    "Verif.Relative.harmC_eq"
   ],
   "note": "As in C115 the radial integrals are those of the rule the program uses, with any spline, and the contact term is the one the program has, not confined to L = 0. axial_file_partial shows that all hypotheses are met by runs of the two programs, in format 15099."
  },
  {
   "property": "C184",
   "status": "proved",
   "theorems": [
    "Verif.Relative.Relcm.relcm_gen_true",
    "Verif.Relative.Relcm.m1_conjugate",
    "Verif.Relative.Relcm.reduced_turn",
    "Verif.Relative.Relcm.given_true",
    "Verif.Relative.Relcm.pair_laws",
    "Verif.Relative.Relcm.state_laws",
    "Verif.Relative.Relcm.triplet_odd",
    "Verif.Relative.Relcm.harmK_turn",
    "Verif.Relative.Relcm.term_turn",
    "Verif.Relative.Relcm.Ex.space_ok"
   ],
   "note": "The laws assumed in C142 and C143 are proved of the coefficients of Condon and Shortley. As in C143 the radial integrals are those of the spline rule, for any spline, and the centre-of-mass coordinate carries the factor rootError."
  },
  {
   "property": "C185",
   "status": "proved",
   "theorems": [
    "Verif.Moshinsky.magnetic_moshinsky",
    "Verif.Moshinsky.rc_moshinsky",
    "Verif.Moshinsky.scattered_given",
    "Verif.Moshinsky.magnetic_tensor",
    "Verif.Moshinsky.has_elements",
    "Verif.Moshinsky.actsRC_exists",
    "Verif.Moshinsky.magnetic_file",
    "Verif.Moshinsky.scattered_of"
   ],
   "note": "Scattered is the assumption on the routine of the basis library that sorts the elements of the relative-cm file by quanta; it is not in the repository. As in C143 the radial integrals are those of the spline rule, for any spline, and the centre-of-mass coordinate carries the factor rootError. magnetic_file shows that all hypotheses are met by runs of the two programs."
  },
  {
   "property": "C186",
   "status": "proved",
   "theorems": [
    "Verif.Osc.length_solves",
    "Verif.Osc.length_unique",
    "Verif.Osc.relative_length_solves",
    "Verif.Osc.centre_length_solves",
    "Verif.Osc.solves_of_length",
    "Verif.Osc.length_ratio",
    "Verif.Osc.generated_derivatives",
    "Verif.Osc.second_derivative",
    "Verif.Osc.gradSqr_osc",
    "Verif.Script.script_length",
    "Verif.Script.script_solves",
    "Verif.Script.lenpic_hbarc_differs"
   ],
   "note": "Doubles are reals; for hw <= 0, where the program has an infinity or no number, nothing is said."
  },
  {
   "property": "C19",
   "status": "proved",
   "theorems": [
    "Verif.Mapping.remapped_elements",
    "Verif.Mapping.remap_unmapped_undefined"
   ],
   "note": ""
  },
  {
   "property": "C20",
   "status": "proved",
   "theorems": [
    "Verif.Mapping.remap_schedule_independent",
    "Verif.Mapping.remap_race_free"
   ],
   "note": "An execution of the parallel loop is an order of its iterations; each writes one double."
  },
  {
   "property": "C21",
   "status": "proved",
   "theorems": [
    "Verif.Mapping.completed_then_remapped",
    "Verif.Mapping.completion_necessary"
   ],
   "note": ""
  },
  {
   "property": "C22",
   "status": "proved",
   "theorems": [
    "Verif.Xform.identity_transformation",
    "Verif.Xform.xform_identity"
   ],
   "note": "Within one basis, any truncation; radial overlap lookup of the absent basis library is a function parameter."
  },
  {
   "property": "C23",
   "status": "proved",
   "theorems": [
    "Verif.Xform.transformation_linear",
    "Verif.Xform.transformation_symmetric",
    "Verif.Xform.transformed_elements"
   ],
   "note": ""
  },
  {
   "property": "C24",
   "status": "proved",
   "theorems": [
    "Verif.Xform.overlap_ket_exchange",
    "Verif.Xform.overlap_bra_exchange",
    "Verif.Xform.overlap_forbidden"
   ],
   "note": ""
  },
  {
   "property": "C25",
   "status": "proved",
   "theorems": [
    "Verif.Xform.xform_is_change_of_basis",
    "Verif.Xform.xform_matrix_composition",
    "Verif.Xform.xform_composition",
    "Verif.Xform.xform_flip",
    "Verif.Xform.xform_orthogonal"
   ],
   "note": "Like and unlike species; the intermediate (or source) pair basis must be untruncated."
  },
  {
   "property": "C26",
   "status": "proved",
   "theorems": [
    "Verif.Xform.identity_operator",
    "Verif.Xform.identity_operator_overflow"
   ],
   "note": "Real arithmetic; int product bound A<=46341 shown sharp."
  },
  {
   "property": "C27",
   "status": "proved",
   "theorems": [
    "Verif.Osc.lowering_is_adjoint",
    "Verif.Osc.elements_are_numbers"
   ],
   "note": ""
  },
  {
   "property": "C28",
   "status": "proved",
   "theorems": [
    "Verif.Osc.square_is_product",
    "Verif.Osc.coordinate_is_number",
    "Verif.Osc.elements_are_numbers",
    "Verif.Osc.kSqrt2_factor"
   ],
   "note": "Up to the factor 2/kSqrt2^2 coming from the decimal literal 1.414213562373095, bounded by 1+1e-16."
  },
  {
   "property": "C29",
   "status": "proved",
   "theorems": [
    "Verif.Osc.coordinate_symmetric",
    "Verif.Osc.momentum_antisymmetric",
    "Verif.Osc.square_symmetric"
   ],
   "note": ""
  },
  {
   "property": "C30",
   "status": "partial",
   "theorems": [
    "Verif.Osc.ksqr_diagonal_negative",
    "Verif.Osc.square_sign_partial"
   ],
   "note": "False as stated: the code's k^2 is negative (it is the square of ik). Proved: the negation, and positivity of r^2 and of minus k^2 as quadratic forms."
  },
  {
   "property": "C31",
   "status": "proved",
   "theorems": [
    "Verif.Osc.wave_functions_closed_form",
    "Verif.Osc.vector_length"
   ],
   "note": ""
  },
  {
   "property": "C32",
   "status": "partial",
   "theorems": [
    "Verif.Osc.momentum_alternation_partial",
    "Verif.Osc.momentum_alternation_fails"
   ],
   "note": "False from n=2 on (sign applied to the n-2 term too): proved for n<=1 and refuted at n=2 for all l, b, k."
  },
  {
   "property": "C33",
   "status": "proved",
   "theorems": [
    "Verif.Osc.single_eq_vector"
   ],
   "note": "Includes independence of the uninitialised locals."
  },
  {
   "property": "C34",
   "status": "proved",
   "theorems": [
    "Verif.Osc.mesh_transformation"
   ],
   "note": ""
  },
  {
   "property": "C35",
   "status": "partial",
   "theorems": [
    "Verif.Relative.radial_loop_complete",
    "Verif.Relative.radial_sqr_loop_complete_partial",
    "Verif.Relative.radial_sqr_loop_incomplete"
   ],
   "note": "True for r and for r^2/k^2 with delta L = 0, -2. False for delta L = +2: the bra loop starts at n-1 instead of n-2 and drops a nonzero element for every L and n; refuted in general."
  },
  {
   "property": "C36",
   "status": "proved",
   "theorems": [
    "Verif.Relative.triangle_enumeration",
    "Verif.Relative.line_breaking_irrelevant"
   ],
   "note": "Lines are token lists; unreadable tokens end a line."
  },
  {
   "property": "C37",
   "status": "proved",
   "theorems": [
    "Verif.Relative.two_sectors_fill_block",
    "Verif.Relative.coupled_headers",
    "Verif.Relative.readJPV_sector"
   ],
   "note": ""
  },
  {
   "property": "C38",
   "status": "proved",
   "theorems": [
    "Verif.Relative.jpv_round_trip",
    "Verif.Relative.jpv_other_sectors",
    "Verif.Relative.pn_round_trip",
    "Verif.Relative.pn_other_sectors"
   ],
   "note": "Through the accumulation loops of both readers and the branching table used on output."
  },
  {
   "property": "C39",
   "status": "proved",
   "theorems": [
    "Verif.Relative.single_species_acts_on_species",
    "Verif.Relative.total_is_charge_independent"
   ],
   "note": ""
  },
  {
   "property": "C40",
   "status": "partial",
   "theorems": [
    "Verif.Relative.pn_order_independent",
    "Verif.Relative.pn_reads_back",
    "Verif.Relative.pn_diagonal_symmetric",
    "Verif.Relative.pn_outside_ignored_partial",
    "Verif.Relative.pn_outside_channel_aborts"
   ],
   "note": "Order independence and symmetry proved. A line outside the truncation is ignored only if its channel exists in the target; otherwise the program exits."
  },
  {
   "property": "C41",
   "status": "proved",
   "theorems": [
    "Verif.Relative.casimir_by_spatial_symmetry"
   ],
   "note": ""
  },
  {
   "property": "C42",
   "status": "proved",
   "theorems": [
    "Verif.Relative.unit_ratio_is_truncation",
    "Verif.Relative.missing_source_is_zero",
    "Verif.Relative.transform_diagonal_symmetric"
   ],
   "note": ""
  },
  {
   "property": "C43",
   "status": "proved",
   "theorems": [
    "Verif.Moshinsky.brackets_exist_unique",
    "Verif.Moshinsky.memo_transparent"
   ],
   "note": "For every request history and every order of evaluation of the summands; the seed limit is an abort, not a wrong value."
  },
  {
   "property": "C44",
   "status": "proved",
   "theorems": [
    "Verif.Moshinsky.bracket_terminates",
    "Verif.Moshinsky.selection_rules",
    "Verif.Moshinsky.requests_conserve",
    "Verif.Moshinsky.transformation_requests_allowed"
   ],
   "note": "Recursion depth bound proved. The last theorem is for the calls made by the Moshinsky transformation."
  },
  {
   "property": "C45",
   "status": "proved",
   "theorems": [
    "Verif.Moshinsky.seed_defined",
    "Verif.Moshinsky.halvings_exact",
    "Verif.Moshinsky.seed_limit"
   ],
   "note": "Exact limit: every allowed seed with rho <= 84 is defined, and rho = 85 leaves the factorial table."
  },
  {
   "property": "C46",
   "status": "proved",
   "theorems": [
    "Verif.Moshinsky.branching_is_wigner_eckart",
    "Verif.Moshinsky.isoscalar_branching",
    "Verif.Moshinsky.branch_matrix"
   ],
   "note": "Given that the JT source holds the reduced matrix elements with their exchange symmetry."
  },
  {
   "property": "C47",
   "status": "proved",
   "theorems": [
    "Verif.Moshinsky.tables_are_clebsch_gordan",
    "Verif.Moshinsky.branching_is_wigner_eckart"
   ],
   "note": "Against Racah's formula for the Clebsch-Gordan coefficients."
  },
  {
   "property": "C48",
   "status": "proved",
   "theorems": [
    "Verif.Moshinsky.canonical_order_carries_over",
    "Verif.Moshinsky.recoupling_finds_state",
    "Verif.Moshinsky.recoupling_matrix",
    "Verif.Moshinsky.recoupled_element",
    "Verif.Moshinsky.connected_iff"
   ],
   "note": ""
  },
  {
   "property": "C49",
   "status": "proved",
   "theorems": [
    "Verif.Moshinsky.cm_conserved",
    "Verif.Moshinsky.relcm_element",
    "Verif.Moshinsky.relcm_linear",
    "Verif.Moshinsky.jmax_sufficient"
   ],
   "note": "Equal to the recoupling sum over all relative angular momenta; linear; no loss once Jmax >= Nmax+1."
  },
  {
   "property": "C50",
   "status": "proved",
   "theorems": [
    "Verif.Obme.compose_sector",
    "Verif.Obme.compose_element",
    "Verif.Obme.compose_overlaps",
    "Verif.Obme.compose_assoc",
    "Verif.Obme.overlaps_identity",
    "Verif.Obme.compose_identity_left",
    "Verif.Obme.compose_identity_right",
    "Verif.Obme.overlaps_integral",
    "Verif.Obme.overlaps_rejects",
    "Verif.Obme.compose_rejects"
   ],
   "note": ""
  },
  {
   "property": "C51",
   "status": "partial",
   "theorems": [
    "Verif.Obme.radialCompose_element",
    "Verif.Obme.radialCompose_rejects_partial",
    "Verif.Obme.radialCompose_accepts_nonradial"
   ],
   "note": "False of the code: the type of the first operand is checked twice, that of the second never. The last theorem is the refutation."
  },
  {
   "property": "C52",
   "status": "proved",
   "theorems": [
    "Verif.Obme.similarity_element",
    "Verif.Obme.similarity_compose",
    "Verif.Obme.similarity_symmetry",
    "Verif.Obme.similarity_identity",
    "Verif.Obme.similarity_rejects"
   ],
   "note": ""
  },
  {
   "property": "C53",
   "status": "proved",
   "theorems": [
    "Verif.Obme.file_round_trip",
    "Verif.Obme.readFile_comments",
    "Verif.Obme.readFile_value",
    "Verif.Obme.chop_spec",
    "Verif.Obme.writeFile_rejects"
   ],
   "note": "Up to rounding to the printed precision and the chopping of small values."
  },
  {
   "property": "C54",
   "status": "proved",
   "theorems": [
    "Verif.Obme.squared_element"
   ],
   "note": ""
  },
  {
   "property": "C55",
   "status": "proved",
   "theorems": [
    "Verif.Mixer.mix_element",
    "Verif.Mixer.mix_total",
    "Verif.Mixer.mix_depends_only"
   ],
   "note": ""
  },
  {
   "property": "C56",
   "status": "partial",
   "theorems": [
    "Verif.Mixer.undefined_ignored",
    "Verif.Mixer.undefined_not_reported"
   ],
   "note": "False of the code: the term is omitted without a report; proved in general and by a run."
  },
  {
   "property": "C57",
   "status": "partial",
   "theorems": [
    "Verif.Mixer.names_once",
    "Verif.Mixer.used_after_definition_partial",
    "Verif.Mixer.definitions_stay",
    "Verif.Mixer.self_reference_value",
    "Verif.Mixer.self_reference_accepted"
   ],
   "note": "A linear combination may name itself (refuted by a run); everything else named was defined before."
  },
  {
   "property": "C58",
   "status": "proved",
   "theorems": [
    "Verif.Count.orbital_dimension",
    "Verif.Count.orbitals_card"
   ],
   "note": ""
  },
  {
   "property": "C59",
   "status": "proved",
   "theorems": [
    "Verif.Count.couplings_count",
    "Verif.Count.couplings_multiplicity",
    "Verif.Count.three_body_sum",
    "Verif.Count.three_body_integer"
   ],
   "note": ""
  },
  {
   "property": "C60",
   "status": "proved",
   "theorems": [
    "Verif.Count.triangular_ends",
    "Verif.Count.triangular_orbitals",
    "Verif.Count.triangular_file",
    "Verif.Count.triangular_oscillator"
   ],
   "note": "Doubles are real numbers. For a negative largest weight the program reports an error."
  },
  {
   "property": "C61",
   "status": "proved",
   "theorems": [
    "Verif.Density.multipole_storage",
    "Verif.Density.initStorage_zero",
    "Verif.Density.store_valid",
    "Verif.Density.store_invalid"
   ],
   "note": "The range may be empty (lo = hi+1); for lo > hi+1 the vector size is negative and nothing is claimed."
  },
  {
   "property": "C62",
   "status": "partial",
   "theorems": [
    "Verif.Density.single_density",
    "Verif.Density.single_all_lines_partial",
    "Verif.Density.single_last_line_lost",
    "Verif.Density.Ex.single_not_all_lines"
   ],
   "note": "False of the code when the file does not end in a newline: the last line is lost without complaint."
  },
  {
   "property": "C63",
   "status": "proved",
   "theorems": [
    "Verif.Osc.oscFn_orthonormal",
    "Verif.Osc.generated_orthonormal"
   ],
   "note": ""
  },
  {
   "property": "C64",
   "status": "proved",
   "theorems": [
    "Verif.Osc.coordinate_is_integral",
    "Verif.Osc.momentum_up_is_integral",
    "Verif.Osc.momentum_down_is_integral",
    "Verif.Osc.coordinateSqr_is_integral",
    "Verif.Osc.momentumSqr_is_integral",
    "Verif.Osc.laplacian_is_integral"
   ],
   "note": ""
  },
  {
   "property": "C65",
   "status": "partial",
   "theorems": [
    "Verif.Relative.dipole_raising_factor_partial",
    "Verif.Relative.dipole_not_hermitian",
    "Verif.Relative.dipole_matrices_disagree"
   ],
   "note": "False of the code for every L: the lowering factor is sqrt(L/(2L+1)) instead of sqrt(L/(2L-1)). The raising factor is right."
  },
  {
   "property": "C66",
   "status": "proved",
   "theorems": [
    "Verif.Obme.tensorProduct_element",
    "Verif.Obme.tensorProduct_rejects"
   ],
   "note": ""
  },
  {
   "property": "C67",
   "status": "partial",
   "theorems": [
    "Verif.Obme.angularMomentum_element_partial",
    "Verif.Obme.angularMomentum_connects_different_n",
    "Verif.Obme.isospin_projection",
    "Verif.Obme.isospin_ladder_partial"
   ],
   "note": "False in general: the code uses the position in the subspace in place of n. Proved for spaces listing n = 0,1,2,... The second theorem is the refutation."
  },
  {
   "property": "C68",
   "status": "proved",
   "theorems": [
    "Verif.Obme.radial_order_zero",
    "Verif.Obme.radial_order_one",
    "Verif.Obme.radial_order_two",
    "Verif.Obme.radial_momentum",
    "Verif.Obme.radial_integral"
   ],
   "note": "k^2 inherits the sign error of C30."
  },
  {
   "property": "C69",
   "status": "proved",
   "theorems": [
    "Verif.Obme.ladder_adjoint",
    "Verif.Obme.ladder_rejects"
   ],
   "note": ""
  },
  {
   "property": "C70",
   "status": "partial",
   "theorems": [
    "Verif.Obme.solidHarmonicSource_element",
    "Verif.Obme.solid_harmonic_Y_partial",
    "Verif.Obme.solid_harmonic_wrong_factor"
   ],
   "note": "False when power and rank differ: Hat(order) is used in place of Hat(J0). The last theorem is the refutation."
  },
  {
   "property": "C71",
   "status": "partial",
   "theorems": [
    "Verif.Obme.readHeader_version",
    "Verif.Obme.unknown_version_undefined"
   ],
   "note": "False: unknown versions leave everything uninitialised (second theorem) and version 0 leaves the type unset (first theorem)."
  },
  {
   "property": "C72",
   "status": "proved",
   "theorems": [
    "Verif.Obme.radialXform_element",
    "Verif.Obme.radialXform_rejects"
   ],
   "note": ""
  },
  {
   "property": "C73",
   "status": "proved",
   "theorems": [
    "Verif.Separable.upgrade_element",
    "Verif.Separable.upgrade_triangle",
    "Verif.Separable.upgrade_rejects"
   ],
   "note": ""
  },
  {
   "property": "C74",
   "status": "proved",
   "theorems": [
    "Verif.Separable.racahReduce_element",
    "Verif.Separable.racahReduce_triangle",
    "Verif.Separable.racahReduce_rejects",
    "Verif.Separable.racahReduce_same"
   ],
   "note": "The exchange symmetry of the recoupling factor of the am library is a hypothesis."
  },
  {
   "property": "C75",
   "status": "proved",
   "theorems": [
    "Verif.Separable.upgrade_identity",
    "Verif.Separable.identity_operator"
   ],
   "note": "That the recoupling factors of a scalar are one is a hypothesis on the am library."
  },
  {
   "property": "C76",
   "status": "proved",
   "theorems": [
    "Verif.Separable.upgrade_symmetric"
   ],
   "note": ""
  },
  {
   "property": "C77",
   "status": "proved",
   "theorems": [
    "Verif.Separable.racahReduce_exchange"
   ],
   "note": ""
  },
  {
   "property": "C78",
   "status": "proved",
   "theorems": [
    "Verif.Mixer.input_source",
    "Verif.Mixer.remap_same_indexing",
    "Verif.Mixer.mix_files",
    "Verif.Mixer.mix_operators",
    "Verif.Mixer.mix_copy"
   ],
   "note": ""
  },
  {
   "property": "C79",
   "status": "proved",
   "theorems": [
    "Verif.Mixer.xform_source"
   ],
   "note": ""
  },
  {
   "property": "C80",
   "status": "partial",
   "theorems": [
    "Verif.Mixer.build_good",
    "Verif.Mixer.linear_operator",
    "Verif.Mixer.linear_operator_obmixer_partial",
    "Verif.Mixer.product_operator",
    "Verif.Mixer.xform_operator",
    "Verif.Mixer.input_operator",
    "Verif.Mixer.initXform_scalar",
    "Verif.Mixer.linear_accepted",
    "Verif.Mixer.product_accepted",
    "Verif.Mixer.xform_accepted",
    "Verif.Mixer.obmixer_adds_unlike_orbitals",
    "Verif.Mixer.Control.h2mixer_linear",
    "Verif.Mixer.Control.h2mixer_refuses_unlike"
   ],
   "note": "In obmixer, combinations of operators on different orbital lists are added by position: refuted there, partial for equal lists."
  },
  {
   "property": "C81",
   "status": "proved",
   "theorems": [
    "Verif.Mixer.target_element",
    "Verif.Mixer.target_unknown",
    "Verif.Mixer.obmixer_files",
    "Verif.Mixer.obmixer_total"
   ],
   "note": ""
  },
  {
   "property": "C82",
   "status": "partial",
   "theorems": [
    "Verif.Mixer.duplicate_last_wins",
    "Verif.Mixer.duplicate_names_accepted"
   ],
   "note": "False of the code: the last source of a name wins."
  },
  {
   "property": "C83",
   "status": "partial",
   "theorems": [
    "Verif.Mixer.separable_character",
    "Verif.Mixer.input_character_unread",
    "Verif.Mixer.input_character_unchecked"
   ],
   "note": "Checked for sources made from one-body operators; not checked for files (refuted)."
  },
  {
   "property": "C84",
   "status": "partial",
   "theorems": [
    "Verif.Mixer.mass_needed"
   ],
   "note": "Use of the uninitialised mass is possible and undefined behaviour; without it the mass was set."
  },
  {
   "property": "C85",
   "status": "proved",
   "theorems": [
    "Verif.Mixer.upgrade_source",
    "Verif.Mixer.product_source"
   ],
   "note": ""
  },
  {
   "property": "C86",
   "status": "partial",
   "theorems": [
    "Verif.Mixer.unlike_spaces",
    "Verif.Mixer.h2mixer_holds_misfit"
   ],
   "note": "False of h2mixer obmixer checks."
  },
  {
   "property": "C87",
   "status": "partial",
   "theorems": [
    "Verif.Mixer.name_changes_operator",
    "Verif.Mixer.identity_name",
    "Verif.Mixer.Control.solid_harmonic_any_name"
   ],
   "note": "False of the code: the name decides on a factor, and the name identity on the operator."
  },
  {
   "property": "C88",
   "status": "partial",
   "theorems": [
    "Verif.Mixer.builtin_squared",
    "Verif.Mixer.builtin_tz",
    "Verif.Mixer.builtin_vector_partial",
    "Verif.Mixer.builtin_isospin_ladder_partial",
    "Verif.Mixer.builtin_ladder",
    "Verif.Mixer.builtin_identity",
    "Verif.Mixer.builtin_total",
    "Verif.Mixer.identityBlocks_total",
    "Verif.Mixer.identity_source",
    "Verif.Mixer.loop_test_source",
    "Verif.Mixer.builtin_off_diagonal"
   ],
   "note": "Vector and isospin ladder operators for spaces without gaps in n (see C67)."
  },
  {
   "property": "C89",
   "status": "proved",
   "theorems": [
    "Verif.Mixer.Control.settings",
    "Verif.Mixer.Control.settings_obmixer"
   ],
   "note": ""
  },
  {
   "property": "C90",
   "status": "proved",
   "theorems": [
    "Verif.Mixer.Control.order_within_kinds",
    "Verif.Mixer.Control.exchange_lines",
    "Verif.Mixer.Control.order_obmixer"
   ],
   "note": ""
  },
  {
   "property": "C91",
   "status": "proved",
   "theorems": [
    "Verif.Mixer.Control.target_terms",
    "Verif.Mixer.Control.ob_terms",
    "Verif.Mixer.Control.terms_obmixer"
   ],
   "note": ""
  },
  {
   "property": "C92",
   "status": "proved",
   "theorems": [
    "Verif.Mixer.Control.parse_words",
    "Verif.Mixer.Control.parse_iff",
    "Verif.Mixer.Control.parse_error",
    "Verif.Mixer.Control.accepted_iff",
    "Verif.Mixer.Control.parseO_iff",
    "Verif.Mixer.Control.accepted_obmixer"
   ],
   "note": ""
  },
  {
   "property": "C93",
   "status": "partial",
   "theorems": [
    "Verif.Mixer.Control.xform_first",
    "Verif.Mixer.Control.xform_without_file"
   ],
   "note": "False of the code: the first definition of a name stays and missing arguments are empty."
  },
  {
   "property": "C94",
   "status": "partial",
   "theorems": [
    "Verif.Mixer.Control.target_orbitals",
    "Verif.Mixer.Control.indexing_mixed"
   ],
   "note": "False of the code: an oscillator cutoff once set is never taken back."
  },
  {
   "property": "C95",
   "status": "partial",
   "theorems": [
    "Verif.Mixer.Control.surplus_ignored",
    "Verif.Mixer.Control.trailing_blank"
   ],
   "note": "False of the code: surplus words are ignored, and a trailing blank is rejected on lines with an optional last argument (assuming GetLine does not remove it)."
  },
  {
   "property": "C96",
   "status": "proved",
   "theorems": [
    "Verif.Mixer.Control.h2mixer_run",
    "Verif.Mixer.Control.h2mixer_order",
    "Verif.Mixer.Control.h2mixer_mixes_files",
    "Verif.Mixer.Control.obmixer_run",
    "Verif.Mixer.Control.overlapOf_element"
   ],
   "note": ""
  },
  {
   "property": "C97",
   "status": "proved",
   "theorems": [
    "Verif.Count.two_body_one_cut",
    "Verif.Count.two_body_two_cut",
    "Verif.Count.three_body_one_cut",
    "Verif.Count.three_body_three_cut"
   ],
   "note": "Integers are unbounded."
  },
  {
   "property": "C98",
   "status": "proved",
   "theorems": [
    "Verif.Count.two_body_am",
    "Verif.Count.two_body_am_ge",
    "Verif.Count.three_body_am",
    "Verif.Count.three_body_am_ge"
   ],
   "note": ""
  },
  {
   "property": "C99",
   "status": "proved",
   "theorems": [
    "Verif.Density.multi_density_1500",
    "Verif.Density.multi_density_1405",
    "Verif.Density.sqrt4pi_close",
    "Verif.Density.multi_other_data_rejected",
    "Verif.Density.charge_change"
   ],
   "note": "The constant in the code is used; sqrt4pi_close bounds its distance from sqrt(4 pi)."
  }
 ]
}