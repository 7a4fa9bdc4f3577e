# Formal model of nd-nuclear-theory/shell: design

## Trusted base

* Lean 4.33.0's kernel, and Mathlib as installed.  No axioms are added; every
  property theorem depends at most on `propext`, `Classical.choice` and
  `Quot.sound` (checked by `#print axioms`, see "Axioms" at the end).
* The translation by hand of the C++ text in `/repo` to the Lean definitions
  under `lean/Verif/*/Model.lean`.  Each definition cites file and lines.
* `double` arithmetic is modelled by exact real arithmetic (`ℝ`).  Where the
  code stores a `float` or prints decimal text, the conversion is an abstract
  function (`toF32 : ℝ → BitVec 32`, `ofF32 : BitVec 32 → ℝ`, resp.
  `fmt`/`parse`), so the theorems say exactly which values go through which
  rounding; nothing is assumed about the rounding itself.
* `int`/`size_t` quantities are unbounded `ℤ`/`ℕ` in index arithmetic; the
  4- and 8-byte integer fields of binary files are modelled at byte level with
  explicit range hypotheses.
* The submodules `libraries/{am,basis,spline,mcutils,fmt}` are empty in the
  checkout.  What is used of them is modelled as follows:
  - `basis` indexing: a subspace/state list with lookup by labels that returns
    the index, or "none" (`basis::kNone`) if absent; labels in a list are distinct.
  - `mcutils::ReadBinary/VerifyBinary/WriteBinary`: little-endian fixed width
    fields; a short read or a mismatch terminates the program.
  - `mcutils::GetLine`: next line; comments/blank lines are assumed absent.
  - `mcutils::ChopMatrix`: entries below the tolerance are set to zero.
  - `am::` Racah/Clebsch–Gordan: parameters, except where a closed form is
    stated in the model (isospin tables).
  - Eigen: matrices are functions or Mathlib matrices; products are exact.
* A failed `assert`, `std::exit(EXIT_FAILURE)`, a failed stream check or an
  out-of-range access is a distinct outcome (`Except.error` / `none`) in the model, never a
  silent value.  `assert` is taken as enabled (the project never defines NDEBUG).

## Properties: what is modelled and how it is proved

H2 files (`Verif/H2`): bytes are `BitVec 8`; the file is a byte list; the reader is a
state machine with byte position, current sector and table of known sector
positions.  Headers are parsed field by field.

| id | model and proof plan |
|----|----|
| C01 | writer = fold over sectors, reader = seek + read; layout lemma (position of sector k is header + sum of sizes) by induction; then exact decode |
| C02 | invariant on reader state (position table = layout positions) preserved by every read; every history |
| C03 | read and skip as separate functions, proved to advance equally |
| C04 | body bytes parse as a list of records, one per run of equal type |
| C05 | counting by induction on dimension and sector list |
| C06 | enumeration list: nodup, membership, length |
| C07 | per-format parse∘print = id with remaining bytes |
| C08 | negation for 15099 with Tz0≠0 (witness), `_partial` for Tz0=0 |
| C09 | text lines as token lists; reader checks labels |
| C10 | arithmetic, injectivity of the numbering |
| C11 | congruence of writer on stored entries; reader result zero below diagonal |
| C12 | invariant over call sequences |
| C13 | factor closed form, inverse |
| C14 | decision logic on strings |
| C120 | `Conv.lean`: the loop of `h2conv` as a fold over both streams; each sector is found under its labels, so the history of reads is a permutation; C01–C02, C07 are then applied |
| C121 | negations from C08 and from the header of format 0 |

Mapping (`Verif/Mapping`): orbitals and two-body states as label lists.

| id | plan |
|----|----|
| C15,C16 | mapping function from lists; physical identity via a "pair wave function" specification |
| C17 | parity arithmetic on half-integers (twice values) |
| C18 | counting argument via injectivity |
| C19 | remap as fold of writes over iteration list; characterised entrywise |
| C20 | fold over any permutation of iterations gives the same matrix |
| C21 | sufficiency for all; necessity by a concrete witness |

Transformations (`Verif/Xform`): C22–C26 over reals with finite sums; half-integer
labels by doubled integers.

Oscillator (`Verif/Osc`): C27–C30 closed forms with real square roots; C31–C33
recurrences (closed form through generalised Laguerre polynomials); C32 is
false of the code (sign of the second term) — negation and the corrected partial;
C34 by calculus lemmas.

Relative (`Verif/Relative`): C35 is false for δL=+2 — negation with witness and
partials for all other cases; C36–C37 state machine over values; C38–C39 linear
algebra on the exact tables; C40 fold over lines; C41 case analysis; C42 matrix
block algebra; C30 (k² sign) also concerns `ConstructCoordinateSqr`.
C106–C113 are the operator constructors of `relative_me.cpp`, function by function (`Construct.lean`).  The specification
(`AmSpec.lean`, `States.lean`) builds the states `|n (L S)J T⟩` from projections with Clebsch–Gordan coefficients, the
operators as matrices between projections, and says by the Wigner–Eckart theorem what a reduced element is; recoupling
factors do not occur in it.  The laws of the absent `am` library are the hypotheses `HalfLaws`, `LSLaws`, `QuadLaws`,
`UnitLaw`, `HalfSym`, `TripletLaws`, met by the table of coefficients in `ConstructTable.lean` (`ConstructExamples.lean`).
All but the last are also proved for the Clebsch–Gordan coefficients of SU(2), between all subspaces of all truncations
(`TrueAm.lean`, `space_laws`, from recoupling in `SU2/Scheme.lean` and `SU2/Vector.lean`).
C106 (k²) and C113 are false of the code.  C114 (`Intrinsic.lean`) proves the factors stated in the header for bilinear
maps on any real vector spaces.
C115 (`N2LO.lean`, `N2LOSpec.lean`, `N2LOProps.lean`) is `ConstructN2LOGTOperator`; the current is specified with products of
spherical tensors between projections, and these are shown to be the Cartesian ones with the second derivatives of the
Yukawa function (`N2LOCartesian.lean`).  The spline rule is a parameter `cubic` of points and values; end points of the mesh
count zero.  `mesh_integral` is the change of variables.  C116 is false of the code (`N2LOContact.lean`).
C117–C119 (`Space.lean`, `Gen.lean`, `GenProps.lean`, `GenOperators.lean`) are the program `relative-gen`: the control file is
specified line by line (`ControlFile`), the space and sectors of the absent `basis` library are lists with a stated order
(`Space.lean`), and the theorems on the constructors are applied to them, so that their hypotheses on sectors are
discharged.  Words of a line enter as lists of strings; the parsing of numbers is a parameter.  Not modelled: the
file written.  The interaction Daejeon16 is not compiled by default; the program with it is in `Daejeon` (C162).  Negative labels and truncations are undefined
behaviour.
C122–C127 (`SpaceIndex.lean`, `Converters.lean`, `JPVFile.lean`, `PNFile.lean`, `XformProgram.lean`) are the programs
`jpv2rel`, `pn2rel`, `relative-xform` and `relative-filter`, over the same space: files are specified by what they say about
each element (`Says`), and the theorems on the readers and on the transformation are applied to the look-ups of that space.
Charge dependence is specified by `projected`, the combination of the components at one `Tz`.  Data files enter as lines of
tokens; the relative operator files enter and leave as labels, truncation and blocks, so their text is not modelled.

Moshinsky (`Verif/Moshinsky`): C43 state-passing evaluation with a cache, in any order
of evaluation of the summands, against the unique solution of the recursion
equations; C44 termination measure and a relation "requested during"; C45 arithmetic
on the factorial arguments; C46–C47 branching against Wigner–Eckart with
Clebsch–Gordan coefficients from Racah's formula; C48 arithmetic and the recoupling
matrix entry by entry; C49 against an independent recoupling sum.
C128–C132 (`Chain*.lean`, `Spaces.lean`, `Program*.lean`) are the program `moshinsky` with all four transformations.
`ChainSpec.lean` gives the element at each stage as a sum over quantum numbers, without subspaces, sectors or indices;
each stage is shown to store these elements (`rc_stage` and so on), and `PnBasis` says what the proton-neutron space has
to be.  `Spaces.lean` and `ProgramExamples.lean` build all spaces for every truncation, derive the law of exchange from
the symmetry of Racah coefficients, and give a file for every operator, so that the hypotheses are met.  The text of
relative, relative-cm, lsjt and jjjt files is not modelled: they enter and leave as labels, truncation and blocks.  The
statements stop at 84 quanta, where the bracket code fails (C45).  Timing and parallel execution are left out.

One-body (`Verif/Obme`): C50–C54, C66–C72.  Operators as arrays of elements between
states; products, similarity transformations, generated operators are compared with
sums over all states, or with the radial integrals of `Verif/Osc`.  Files are lists of
lines of tokens; C53 is a round trip for every space, together with the statement that
every accepted element is the number in its row and column.  C51, C67, C70 and C71 are
false of the code — negations and partials.
C133–C136 (`Ew*.lean`) are the program `ew-gen`.  `EwSpec.lean` describes the accepted lines by a relation (`Says`), says which
declaration supplies each source (`radialOf`, `amOfCmds`, …), and gives operators as functions of pairs of states (`Op`);
`Stores` says what a reader of the file finds.
C137–C141 (`RadialGen*.lean`) are the program `radial-gen`, in the same manner.  `basisAt` says which `set-ket-basis` line is in force at
a target; `What.value` gives the element between two orbitals, for oscillator integrals of first and second order as the
integral of the functions themselves.  The composition with `ew-gen` (C141) identifies the files written with those read.

C144 (`Moshinsky/RelCMSource.lean`) starts from a relative-cm file instead: `lsSpec`, `jjSpec` and `twoBody` take the elements of any
operator on relative and centre-of-mass motion, and the theorems on relative files are the case of one that leaves the latter alone.  The
operator handed over by `ReadAndScatterRelativeCM`, both triangles of diagonal sectors included, is given by its elements (`GivenRC`).

C145–C147 (`H2/Stat.lean`, `H2/StatProps.lean`): h2stat on top of the stream model. For C146 every reader is shown to be
`Local` (a successful read stays inside the data and does not depend on what follows): a prefix that opens has the header of
the whole file, and if all its sectors can be read it is as long as the whole file. Truncation of text files is by lines.

C148–C151 (`Obme/Extract.lean`, `Obme/ExtractProps.lean`): radial-extract and radial-plot on top of the file model of C53.
The specification is the expansion of each orbital of the ket space in the orbitals of the bra space (`Expands`,
`transformed`), written with sums over all orbitals. C151 composes them with the theorem on natorb-gen (C103). The radial
functions are a parameter (`spline` is absent).

C152, C153 (`Relative/JPVStat.lean`, `JPVStatProps.lean`): jpvstat, as the reader of C37 and C122 with a record of what it
prints for each section. `Describes` is stated with counted sets (triangle, levels below the cutoff) and places in the
enumeration of subspaces. `reports_agree` relates the reporting reader to the reader proper on every text.

C154, C155 (`Count/OrbitalGen.lean`, `OrbitalGenProps.lean`): the whole of orbital-gen, around the loops of C60. The program is
a relation, since its loops need not end and `std::sort` leaves equal weights in any order. Orbital files are opaque texts,
with the reader and writer of the absent basis library as parameters (`Basis`, law `RoundTrip`).

C156 (`Script/GenerateInput.lean`, `GenerateInputProps.lean`): the run script and the control file of the worked example
(`script/manual-example/generate_input.py`) and `script/jpv2rel.py`, given to the models of orbital-gen (C155), h2mixer (C95) and
jpv2rel. For all parameters all three programs refuse; what remains is that h2mixer reads exactly the lines that declare no source.
`mfdn_input` is not modelled (MFDn is not part of the repository), nor is what radial-gen does with arguments.

C157 (`Script/Hamiltonian.lean`): the coefficients of the same file. Specification: `Particles n E`, any algebra over the complex
numbers with positions and momenta of `n` particles that obey the canonical commutation relations; the kinetic energy, the radius and
the quanta of the centre of mass are defined from these, the quanta by ladder operators (`Particles.ladder`). `polynomials n` shows
that the structure is inhabited. `example_targets_read` connects the coefficients with the lines h2mixer reads.

C158 (`Script/CompareMe.lean`, `CompareMeProps.lean`): `validation/compare_me.py`. Elements are real numbers or not a number; the
specification has `Data` (the rows of a file), `Value` (the last row with given labels) and `Shows` (difference, ratio, flag).

C159 (`Script/Partitioning.lean`, `PartitioningProps.lean`): `script/partitioning_formatter.py` with texts as lists of characters and
`Text` saying independently of `words` which words a text has. White space is blank, tab, carriage return and line feed (Python
also takes others).
C160–C162 (`Daejeon`): `V_Daejeon16` with its 20 tables (`Tables1.lean`–`Tables8.lean`, number by number; `Num` keeps the decimal digits of
a constant), its 38 branches, `ConstructDaejeon16Operator` and `relative-gen` with `USE_DAEJEON16` (`Model.lean`).  The specification
names the table of a channel by its spectroscopic symbol.  Symmetry and emptiness beyond 60 quanta are checked by the kernel on all numbers of
the tables (`TableProps.lean`), which are finite; the theorems (`Props.lean`, `Program.lean`) hold for all arguments and control files.
Rounding of the constants to single precision is a parameter.

C163 (`Density/Compare.lean`): the comparison of `obdme-compare_test.cpp`, on densities as `readSingle` and `readMulti` return them (the
program itself is commented out in `module.mk`). The loop with its undetermined sign is proved equivalent to the existence of a sign
(`compare_verdict`). `Common` says which elements both densities have; partial since the program does not test what is intended (below).

C164 (`Moshinsky/Solid.lean`, `Oscillator`, `Fock`, `Overlap*`, `Coupling*`, `Recoupling`, `Spinor`, `Contract`, `Null`, `Seed*`, `SixJ`,
`OverlapRun`): what the brackets of C43–C45 mean. The specification (`Overlap.lean`) is short: a state of two particles is a polynomial
in six creation operators, `fock` is the scalar product in which monomials are orthogonal with norm squared the product of the factorials of
their exponents, `osc n l m` is the normalised `(c·c)^n` times a solid harmonic, and `overlap` is the scalar product of two coupled states.
The recursion in `n1` follows from the action of annihilation operators on `osc` and recoupling; the seed formula from generating functions in
spinors (`genF`), the coefficients of which are `tSum`, the sum in Racah's formula. Coupling coefficients `cg` are Racah's formula; the
laws used of them (norm, exchange, recoupling) are proved, and six-j symbols with their defining property are constructed
(`six_sixJ`: a contraction of three invariants is an invariant, and these are multiples of one).

C165 (`Moshinsky/Ortho.lean`, `Rotation`, `Complete`, `Orthogonal`): products of states of single oscillators are orthonormal (`pair_ortho`) and
span the polynomials of each degree (`homogeneous_shell`); coupling is an orthogonal change of basis (`cg_complete`: as many `Λ` as pairs of
projections), states of different `Λ` or `M` are orthogonal (ladder operators, `coupled_ortho`), and the change to relative and centre-of-mass
operators keeps the scalar product (`fock_turn`). Then rows and columns of overlaps are coordinates of orthonormal vectors.

C166 (`Moshinsky/AntiSym.lean`): the specification is `antisym`, the orbital part of `(1-P)/√2` applied to a state of given spin and
isospin. `ls_stage_operator` is about the model of the stage (`lsBlocks`, C129); `ls_product` about `lsSpec`, the formula of C129.

C167–C170 (`SU2/*.lean`, `Moshinsky/Nucleon*.lean`). `SU2/Coeff.lean` to `Symmetry.lean` give the Condon-Shortley coefficients for integer and
half-integer angular momenta (`cgd`), their orthogonality, completeness and symmetry, and the overlaps of coupling schemes of three and four
angular momenta. `Nucleons.lean` is the specification: `Nucl` are the states of two nucleons, with spin and isospin, `lsState`, `jjState`, `relCM`
the ways of coupling them, `asym` is `(1-P)/√2`. `IsNine`, `IsZ`, `IsRose` say what the `am` library should return, by sums over projections;
`NucleonCoeff.lean` constructs such functions. `IsRelative` says which operators have the reduced elements of a relative file, and
`relative_exists` that there are some for all reduced elements. `moshinsky_operator` joins C129 with these; `NucleonExample.lean` gives a
world in which all hypotheses hold, so that `scalar_file` is a statement without hypotheses on the libraries. Projections of proton-neutron pairs
are those of `BranchTwoBody`; `cg_racah` shows that the Racah formula of `Branch.lean` is the Condon-Shortley coefficient.

C171 is the same from a relative-cm file: `HasElements` (in `NucleonRel.lean`) says which operators have the elements `A` between states of
relative and centre-of-mass motion, `elements_exist` that there are some for all `A`, `scalar_relcm_file` is the statement without hypotheses on
the libraries.

C172 and C173 join `relative-gen` (C119) to `moshinsky` (C169).  `Relative/TrueReduced.lean` shows that the named operators are tensors and
Hermitian with the true coefficients; `Moshinsky/NucleonBridge.lean` passes from elements between products (`ActsAs`) to reduced elements
between coupled states; `NucleonGen.lean` has C172.  `NucleonPhys.lean` defines positions and momenta of the two nucleons by multiplication
with, and derivation by, the variables of the polynomial model of the oscillator, the square of the distance and the relative angular momentum
from them, and finds their elements; `NucleonActs.lean` does the same for spins, isospins, the Casimir operator of SU(4) (sum of the squares of
its generators) and Gamow-Teller, and has C173.  `NucleonGenExample.lean` has two runs, `relative-gen` with `rsqr` and `moshinsky`, without
hypotheses on the libraries (`rsqr_file`).  The text file between the programs is not modelled here: `Wrote` says that `moshinsky` reads the
labels and the numbers that `relative-gen` computed.  `NucleonQuad.lean` has the quadrupole: `harmonic2` couples the separation with itself to
rank two, `motion_harmonic` finds its elements by a sum over intermediate states, a radial sum (`radial_square`: the square of `r` from two
factors `r`) times a recoupling of angular momenta (`angular_square`), and `harmonic2_zero` says that component zero is `√(5/16π) (3z² - r²)`.

C174 (`Separable/Nucleons.lean`) gives the operators that `h2mixer` makes from one-body operators a meaning in first quantisation: the states of
one nucleon are any orthonormal vectors, two nucleons live in the tensor product, pair states are sums with Clebsch-Gordan coefficients.
`Separable/TrueAm.lean` defines the three recoupling factors by Clebsch-Gordan coefficients and proves the laws that were hypotheses of the
earlier properties of the separable operators (C73 to C77, C85); `Relative/TrueProduct.lean` proves Racah's reduction for products of operators on two systems.
`Separable/OneNucleon.lean` realises the states of one nucleon by oscillator functions with spin and isospin;
`Mixer/NucleonSource.lean` has the statement for the sources of `h2mixer`.

C175 (`Separable/OneNucleonOps.lean`, `OneNucleonSpin.lean`, `OneNucleonSquare.lean`, `Mixer/Meaning.lean`, `NucleonBuiltin.lean`,
`NucleonGenerated.lean`) says which operators the names of `h2mixer` and `obmixer` stand for.  The states of a nucleon are those of C174: polynomials of
creation operators for the motion, with spin and isospin.  `create` multiplies by a variable, `annihilate` differentiates, `position1` and `gradient1` are
their sum and difference over the square root of two; spin and isospin are the matrices `jmat 1` and the ladder matrices.  `ObData.Means` says that the
elements stored are the reduced elements of such an operator between the orbitals of the space at all projections.  The values of the functions of
`am/rme.h` are parameters of the model; here they are the true reduced elements (`trueCrme`, `trueRme`), which are sums of Clebsch-Gordan coefficients of
SU(2).  The condition on the space for `l`, `s`, `j`, `t+`, `t-` is the one of C67.  `r` and `ik` are inexact by `√2/1.414213562373095` (C68).

C176 (`SU2/Product.lean`, `Mixer/Compose.lean`, `Mixer/Denote.lean`) gives every one-body source of a control file a meaning.  The inductive predicate
`Control.Denotes` reads the declarations alone: a file stands for a tensor operator of which it holds the reduced elements, a name for the operator of C175, and
combinations, products and transformations for what is made of the operators they name.  It mentions neither the channels nor the matrices of the model.  The
product is Σ ⟨k1 q1 k2 q2|k q⟩ X_q1 P Y_q2 with P the projection on the states of the orbitals, so the sum over inner orbitals that the program takes is not
hidden.  `denotes_built` says the matrices built in a run hold the reduced elements of these operators, `obmixer_denotes` carries this to the files of `obmixer`.
That the elements recouple with one factor is `SU2.product_recoupling`, proved from `recouple3`; the factor itself is the parameter `w` of the model set to
`trueW`.

C177 (`Mixer/TwoNucleons.lean`, `Mixer/TwoNucleonsXform.lean`, `Mixer/PairNorm.lean`, `Mixer/Denote2.lean`) does the same for the two-body sources and for the whole
run of `h2mixer`.  `Control.Denotes2` reads the declarations and gives each an operator on `Nucleon ⊗ Nucleon`; `pairOf` is the state of two nucleons, coupled,
antisymmetrised and normalised; `Reduced` says that a number is the reduced element of an operator between two such states at all projections and components, in
Rose's convention.  `h2mixer_denotes` joins them: the numbers in a target file are reduced elements of the combination of operators named in the control file.
`xform_reduced` needs no factor for the normalisation of pairs in one orbital to be assumed: `newState_sum` shows that the state of two nucleons in new orbitals is
the combination of old ones with the coefficients of `TwoBodyTransformMatrix`.  `identity_reduced` rests on the orthonormality of the states `pairOf`, proved in
`PairNorm.lean` from that of the states of a nucleon.  `Denote2Witness.lean` runs a control file with a U source, a V source, the identity and a transformed file.

C178 (`Mixer/Joined*.lean`, `Mixer/Routes.lean`) compares the two ways to an operator on two nucleons.  C173 puts two nucleons in functions of both positions
(`Nucl`), C177 in the tensor product `Nucleon ⊗ Nucleon`.  `joined` is the map between them; `joined_nas` shows that the normalised antisymmetrised states of both
are the same, including phases, and `Joins` that an operator on one is an operator on the other.  `Separates` writes the operators of `relative-gen` with
operators on one nucleon, as in `(r1 - r2)² = r1² + r2² - 2 r1·r2`.  `routes_agree` follows from C173 and C177: no formula for a matrix element enters.
`RoutesWitness.lean` runs the three programs for the squared distance of two protons in 0p3/2.

C179 (`Moshinsky/NucleonCoulomb*.lean`) is C172 for the Coulomb operator.  `1/r` does not map polynomials times the Gaussian to such functions, so the operator is any
linear map that has the radial elements up to the number of quanta of the file (`IsCentral`).  `relative-gen` writes three isospin components for protons or neutrons;
`among_sum` proves that, with the coefficients of SU(2) (`triplet_laws`), they add up to the operator that acts on these pairs only.

C180 (`Moshinsky/NucleonInteraction*.lean`) joins C122, C123 and C124 to C169.  The specification does not mention isospin components: an interaction is a linear map
on states of two nucleons whose elements between states of relative and centre-of-mass motion are those of the pp, nn or pn file, according to the projection of the
isospin.  The proof splits it in the three components that the relative file holds (`partRME`): the isovector and isotensor ones exist by `relative_exists`, and what is
left of the interaction is isoscalar (`interaction_scalar`), by the values of the Clebsch-Gordan coefficients of the triplet.  The H2 file then holds the sum.

C181 (`Moshinsky/NucleonIdentity.lean`) joins C169 to C170 for the identity: the specification is only that the element between equal states is
one and all others are zero.  That relative-gen takes `Jmax = Nmax + 1` is used: with a smaller `Jmax` the operator is not the identity.

C182 (`Moshinsky/NucleonSymmUnit.lean`) joins C118 to C171 for unit tensors.  `IsSymmUnit` says what the operator is by its elements between states
with projections: a coupling coefficient from `K` to `B`, and for the other direction Hermitian conjugation, `(-1)^M0` times the element of the
component `-M0`; no factor of an exchange of reduced elements occurs in it.  `swap_conjugate` is the link to that factor.

C183 (`Relative/TrueCurrent.lean`, `Moshinsky/NucleonAxial.lean`, `Moshinsky/NucleonAxialExample.lean`) joins C115 to C171.  `am12D` has the
coefficients of Condon and Shortley for the functions of the `am` library that the current needs (`Am12`), and the laws that C115 assumes
(`HalfLaws12`, `TensorLaws`) are proved of them; so C115 holds with a real library.  `harmC` is the second spherical harmonic in Racah's
normalisation, `√(4π/5)` times that of the quadrupole operator.  `current_hermitian` needs both cross products: each alone changes sign.
`acts_exists` shows that for any elements on the relative motion there is an operator on the states of two nucleons that has them, so the
operators quantified over in C172 and C183 exist.  `axial_file_partial` is a pair of runs for an operator that changes the angular
momentum; it asks of single precision only that 0, 1 and 2 are exact.  Missing, as in C115: the exact radial integrals, and the restriction
of the contact term to `L = 0`.

C184 (`Relative/TrueMagnetic.lean`, `Relative/TrueMagneticExample.lean`) proves the laws that C142 and C143 assume of the angular momentum
library for the coefficients of Condon and Shortley (`pair_laws`, `state_laws`; the only condition left is that the orbital angular momenta of
a state couple to that of its subspace), and that the operator is Hermitian (`m1_conjugate`).  `reduced_turn` gives the elements that are not
written, from Racah's law for the exchange of bra and ket.  `Ex.spaceOf` is a space of all states for every truncation; its order of
subspaces is ours.

C185 (`Moshinsky/NucleonMagnetic.lean`, `NucleonMagneticExample.lean`) takes the file of C184 through `moshinsky` (C171).  `ActsAsRC` says what an
operator does to product states of relative motion, centre-of-mass motion, spins and isospins; `has_elements` takes it to the coupled states,
`scattered_given` shows that the file of `relcm-gen` holds its reduced elements, also where the operator changes the motion of the centre of
mass.  `magnetic_file` is a pair of runs, with the subspaces in the order of `moshinsky`.

C186 (`Osc/Schroedinger.lean`, `Script/OscillatorLength.lean`) is `oscillator_parameters.{h,cpp}`.  `Solves` is the radial Schrödinger equation; it is
proved of the functions that `OscillatorWaveFunction` returns (C31), from the gradients of C64.  `length_unique` needs that they are normalised
(C63).

C142 and C143 (`Relative/NLOM1*.lean`, `Racah.lean`) are the magnetic dipole operator of `relcm-gen`.  `NLOM1Spec.lean` gives the operator
between product states of relative motion, centre-of-mass motion, two spins and two isospins; `nlom1_stored` says that the
blocks are its reduced elements between the coupled states.  `m1_cartesian` shows that this operator is the formula in
terms of vectors.  The laws of the recoupling coefficients are hypotheses (`PairLaws`, `Laws`); `NLOM1Table.lean` proves
them, with Racah's formula for the Clebsch-Gordan coefficients, for a space with two sectors.

Separable operators (`Verif/Separable`): C73–C77.  The formulae of `tbme_separable.cpp` are compared
with a bilinear form on two-particle states whose values on coupled products are those of
`u(1)+u(2)` or `[x(1) y(2)]`; the normalised antisymmetric states are defined in `Spec.lean`.
`form_exists` shows that there always is such a form.

Mixer (`Verif/Mixer`): C55–C57, C78–C96, the programs `h2mixer` and `obmixer`.  `Model.lean`: opening,
populating and combining the two-body sources sector by sector; `OneBody.lean`: the named one-body
operators of both programs as a map from names to operators, built definition by definition.  Files
are what the readers of `Verif/H2` and `Verif/Obme` deliver.  `mix_element` gives each target element as
the chopped combination; the `*_source` theorems give each kind of source against the
specifications of `Verif/Mapping`, `Verif/Xform` and `Verif/Separable`.  Chopping (the tolerance below which
an element is written as zero) is part of the statement.  `Control.lean`: `ReadParameters` of both programs over
lines of words; a decimal number is a word accepted by a given function.  C92 characterises acceptance by a
table of patterns independent of the reader, for every line; C89–C91 describe the result by
filtering the commands.  C56, C82, C86, C87, C93, C94, C95 are false of the code and refuted; C57, C80, C83,
C88 hold in part.  `Program.lean` composes the parts into the two programs: a disk maps names to what the
readers deliver, the absent `basis` library supplies the indexing.  C96 reads the result off the lines of
the control file; that the inputs of `obmixer` are good is derived from the parsed declarations and assumed
of the files.  `ProgramLinear.lean` states the part of C80 on linear combinations for whole runs of `h2mixer`.

Counting (`Verif/Count`): C58–C60, C97, C98, the functions of `statecount` and the triangular mode of
`orbital-gen`.  A `for` loop is a relation between start and result, so that ending is part of what is proved.
The orbitals of the absent header `shell_indexing_nlj.h` are any enumeration shell by shell.  The specification
counts how often `J` occurs by projections (states with projection `J` less those with `J+1`), independently
of intermediate couplings.

Density (`Verif/Density`): C61, C62, C99–C105, the whole of `obdme_io.cpp` and the programs `obscalc-ob`
and `natorb-gen`.
A density is an array of elements per multipole, between orbitals given by quantum numbers; storage, single files
and multi files are compared with the list of elements the text stands for.  Unchecked `operator>>` keeps the
previous value at the end of the data and gives zero for a malformed number.  C62, C100 and C101 are false of the
code — negations, and partials for C62 and C101.  Files are those of `Verif/Obme`; the Wigner coefficient is any function.
For C103 the eigensolver, the sort and the rebuilding of a space from its orbitals are parameters with the laws `EigLaw`,
`SortLaw`, `SpaceLaw`, each of which is shown to be met by an instance (`solver_law`, `Ex.ext_sort`, `Ex.space_law`).
C104 and C105 are false of the code — negations and partials.

## Disagreements between code and property

Each of these is a theorem (a refutation with a concrete witness, or for all
arguments), next to a `_partial` theorem for what does hold.

* C08 (`Verif/H2/HeaderProps.lean`): a 15099 file with
  `Tz0 ≠ 0`, a `.mat` file name, a sector with at least 2^31 elements, and format 0
  with the ambiguous record markers are accepted by the writer but not readable.
* C26: the identity on a non-diagonal sector aborts; the `int` product `A(A-1)`
  overflows from `A = 46342` on.
* C30: the `k²` matrix elements of `oscillator_me.cpp` are those of `-k²`.
* C32: the recurrence for momentum-space functions has a wrong sign; wrong from `n = 2` on.
* C35: the radial loop for `δL = +2` starts one too late and drops an element for every `L`, `n`.
* C40: a pn-format line whose channel is outside the target makes the reader exit.
* C45: `ρ = 85` is the first value at which the seed leaves GSL's factorial table.
* C51: `radial-compose` checks the type of its first operand twice; a second operand of
  any type and tensor character is accepted and the result is labelled an overlap.
* C67: the angular momentum and isospin ladder operators use the position in the
  subspace in place of `n`: with `0p3/2` and `1p1/2` only, they connect them.
* C70: a solid-harmonic source is scaled by `Hat(order)` in place of `Hat(J0)`;
  `r² Y_0` is too large by `√5`.
* C71: a one-body file of unknown version leaves the header variables uninitialised;
  version 0 leaves the operator type uninitialised.
* C65: the lowering factor of the relative dipole operator is `√(L/(2L+1))` in place
  of `√(L/(2L-1))`; the matrix is not Hermitian.
* C56: `add-source` with a name that no source has is ignored; so is every source of a name in sectors where
  it has no block.
* C57: a linear combination may name itself: the terms read the value built so far.
* C80: `obmixer` adds operators on different orbital lists position by position.
* C82: two two-body sources of one name are accepted, the last one counts.
* C83: the tensor character in the header of an input file is not compared with that of the target.
* C86: `h2mixer` accepts a one-body file between different spaces and keeps only the ket space.
* C87: in `obmixer` the name of a solid-harmonic source decides whether `√(2λ+1)/√(4π)` is multiplied in, and a
  source named `identity` is the unit operator whatever its definition says.
* C93: of two `define-xform` lines with one name the first counts; missing arguments are taken as empty.
* C94: `set-target-indexing` after `set-target-indexing-oscillator` changes the weights but not the orbitals.
* C62: the last data line of a single-file density without final newline is lost.
* C100: a multi-file density with missing numbers is accepted; the missing places get the last number.
* C101: `obscalc-ob` contracts an operator on other orbitals position by position.
* C104: the info file of `natorb-gen` uses the number of the eigenvector as `n`, and so can name orbitals that do not exist.
* C105: `natorb-gen` passes over unknown keywords.
* C106: the stored `k²` elements are those of `-k²`.
* C113: in sectors with `L' = L-1` the stored dipole elements are the true ones times `-√((2L-1)/(2L+1))`; the momentum
  dipole is half of the coordinate dipole, without the phases of momentum space.
* C114: the header's `T_rel = ħ²/(4m) k_rel²` gives a quarter of the intrinsic kinetic energy (`k_rel = (k1-k2)/2`).
* C116: the contact term of the N2LO axial current is applied for every `L` and lacks the factor `√(4π) r` in its
  integrals.  For `L' ≠ L` the code relies on a reduction factor of the library evaluated outside its domain;
  `TensorLaws.other` takes that factor to be zero.
* C117: a control file without a final newline may lack lines: the last one is read again in their place.
* C118: labels of a unit tensor that name no state, subspace or sector are not recognised; the look-up result is used.
* C119: as C106, C113, C116.
* C121: `h2conv` writes a charge-changing operator in format 15099, which cannot be opened again, and writes format 0 for any
  orbitals: the file then opens on oscillator orbitals.  With fewer than three arguments it succeeds without doing
  anything (`Convert.run`).
* C122: a comment in `jpv_io.cpp` allows target spaces smaller than the file; a channel outside the target ends the program.
* C125: `pn2rel` tests for two arguments and uses four; a line between channels of different parity is not recognised.
* C127: `relative-filter` reads only the file names; every filter, known or not, is the identity.
* C132: `moshinsky` does not compare the truncation of a relative-cm file with the one asked for; a subspace that the file
  lacks is used as an index.  For relative files an assertion fails.
* C134: `ew-gen` computes `2 / (lambda + 1)` in integers, so the orbital magnetic operator of rank two or more is stored as zero.
* C136: without `set-basis-scale-factor` the number is uninitialised; the tensor character of a source file is never compared
  with the one that the target needs.
* C139, C140: `radial-gen` writes angular momenta between orbitals of different `n` when the orbitals have gaps; a line with an unknown
  family of operators is accepted, and mode, order and tensor character are used uninitialised.
* C143: `relcm-gen` reads the number of integration steps and does not use it; `relcm-gen` and `relative-gen` differ in this.
* C146: h2stat --verify does not look for the end of the file; data after the last sector is accepted without notice.
* C148: radial-extract uses the index of a subspace that was not found when the ket space has labels which the bra space
  lacks (e.g. a transformation to a larger space); undefined behaviour instead of an error.
* C149: radial-plot looks up the labels in the bra space and then takes the ket subspace with the same number. If the ket
  space is ordered otherwise the sector is not found (undefined behaviour); if its subspace has another size, an assertion
  of Eigen fails. Labels which the bra space lacks are undefined behaviour as well.
* C150: radial-plot does not check its numbers: a word that is no number counts as zero (so `p` for l plots s orbitals),
  and j = 0.7 is taken for 1/2.
* C152: the number of entries jpvstat shows for a section within one subspace is `d*(d+1)`, twice the number of stored
  elements (`jpv_io.cpp` 149).
* C153: jpvstat with two arguments reads neither; it tries to open the file with the empty name.
* C156: the worked example calls `orbital-gen --oscillator` and writes `define-radial-operator` and `define-source`, none of which
  the programs know; `jpv2rel.py` leaves out the highest isospin. `radial-gen` is given arguments but reads its standard input.
* C157: `{:e}` keeps seven digits of each coefficient. `tbme-VC.bin` is asked for also if Coulomb is switched off, when no source `VC`
  is declared, so that h2mixer writes zeros (C56).
* C158: `compare_me.py` ignores rows that only the second file has, never flags a difference that is not a number, and uses the last
  of several rows with the same labels.
* C159: `{:>8}` leaves no blank before an entry of eight or more characters; the first entry is compared with the last weight, so
  that the partitioning usually begins with an empty line.
* C160: the comment in the source gives `n` up to `(61-L)/2`, but the tables are zero for 61 quanta; for more quanta zeros are returned
  without warning.  The constants are of single precision (no `d` exponent), although the function returns double precision.
* C162: the interaction for `J` above 6 is left out; `Jmax` in the header is reduced and no message is shown.
* C163: `obdme-compare_test` skips "numerical zeros" by `< tolerance` without absolute value, so that densities with negative elements are
  accepted however much they differ (`compare_negative`); multipoles that only one file has are not compared
  (`compare_other_multipoles`); the message for a disagreement gives the label of the bra twice.
* C186: `lenpic_constants.h` has `ħc = 197.3269804`, `oscillator_parameters.cpp` and `generate_input.py` have `197.327`
  (`lenpic_hbarc_differs`), so a length from `hw` and the chiral operators do not share units exactly.
* C95: surplus words are ignored; a trailing blank makes a line with an optional last argument a parsing error.

## Assumptions made by hypotheses

Structures appearing as hypotheses describe what the absent `basis` and `am` libraries
provide; each has an `example` that meets it.

* `BasisLib`, `PairKets`, `JSpace`, `GoodSectors`: subspaces list each two-body state once,
  in canonical order, and sectors connect subspaces allowed by the operator.
* `Indexed` (`Verif/H2/ConvProps.lean`): sectors refer to subspaces of the space, labels are distinct, no sector is listed
  twice; the two orderings list the same subspaces (`hperm`) and equally many sectors (`hn`).  Input and output of
  `h2conv` are different files.
* `HeaderFloat`: conversion of the header `float` fields.
* `Overlap`: radial overlaps depend only on species and orbital labels.
* `GoodSpace`, `SectorsOf`, `Fits` (`Verif/Obme/Spec.lean`): orbital subspaces have distinct
  labels with `j = l ± 1/2` and distinct `n`; sectors list each allowed pair once; matrices have
  the sizes of the sectors.  `LibLaws`, `Built`: a printed orbital list parses back, and a space is
  rebuilt from its orbitals.
* `ExchangeLaw`, `ScalarLaw` (`Verif/Separable/Spec.lean`): symmetry of the nine-`j` recoupling factor
  under exchange of the particles; recoupling factors of a scalar are one.  Equality of two
  `OrbitalStatePN` is taken as equality of species and labels; a failed lookup in
  `MatrixElementLJPN` is undefined behaviour.
* `relSpace`, `relSectors` (`Verif/Relative/Space.lean`): the relative space has its subspaces in the order of `L`, `S`, `J`,
  with `L ≤ Nmax`, `J ≤ Jmax`, and the sectors are the allowed pairs in canonical order.  This is taken from the
  documentation of the library and is not visible in /repo.
* `PairLaws`, `Laws` (`Verif/Relative/NLOM1Spec.lean`): the recoupling factors of `am` are those of reduced elements, for the sectors
  in use.  `RelativeCMSectorsLSJT` lists allowed pairs with the bra not after the ket (`sectorsOf`).
* `single 0 = 0` (C160, C162): the constant zero is exact in single precision.
* `Angular` (C164): `am::Wigner6J` has the defining property of six-j symbols for integer arguments and `am::Unitary6J` is, up to the
  symmetry `{a b c; d e f} = {e a f; b d c}`, `(-1)^(a+b+d+e) √((2c+1)(2f+1))` times the six-j symbol. The library `am` is not in the
  repository. Such functions exist and are determined by this.
* `Coefficients` (C167–C169): `am::Unitary9J`, `am::Unitary6JZ` and `am::RacahReductionFactor1Rose` are the overlaps of coupling schemes and the
  reduced elements that their names say. Such functions exist (`coefficients_envC`) and are determined by this for arguments in use.
* `Wrote` (C172, C173): the relative file, a text file, is read back with the labels and numbers that were computed.
* `trueW` (C176): `am::RacahReductionFactorRose(J', J, J'', Ja, Jb, J0)` is the overlap of (J Jb)J'' Ja J' with J (Ja Jb)J0 J', in this order of coupling; the
  library is not in the repository, so this is the meaning its name and its use in `OneBodyOperatorTensorProduct` call for.
* `Stored`, `Triangles` (C177): an H2 file that is read holds, in the upper triangle of diagonal sectors and in all of the others, the reduced elements of one
  tensor operator between pairs of nucleons, equal to those of the transposed pair in diagonal sectors, and its sectors obey the triangle rule. The files of
  `moshinsky` (C172) and of `h2mixer` (C177 itself) do so up to the rounding to single precision and the values set to zero.
* `Complete2` (C177): a transformed H2 file holds all pairs of its orbitals that the target needs; this is what the truncation given in the control file is for.
* `SameState` (C178): the orbitals of the two files are matched by `(N, 2j)`, and both files hold states of the same J; the sum of the sources of the target must
  be the operator for each component q of its rank, with the weight of a product of `r` from `obmixer` divided by the square of √2/kSqrt2.
* C179: the radial integrals of `1/r` by splines are a function `lib.coulomb` that is symmetric in the two radial quantum numbers.
* `MakesIdentity`, `Canonical` (C181): the `basis` library makes the identity as unit matrices of the diagonal sectors of the isoscalar
  component, and its two-body spaces list pairs of like nucleons with the first orbital not after the second, and even `J` for the same orbital.
* `Scattered` (C185): `ReadAndScatterRelativeCM` keeps the elements of the relative-cm file, between the states with the same labels.  The
  routine it calls and the order of the subspaces are those of the basis library.
* `Script.Readable`, `Script.Reads` (C156, C157): Python prints integers and floating-point numbers that C++ reads, `{:e}` up to a
  function `rnd`; realised in `Script/Examples.lean`.
* `OrbitalGen.RoundTrip`, `Standard`, `Comparison` (C154, C155): the basis library reads the orbitals it writes, up to rounding of
  weights; its oscillator space holds the shells up to Nmax; its comparison is a strict weak order.
* `Represents`, `LSRepresents`, `RelRepresents`: the source of a recoupling step holds the
  reduced matrix elements of an operator (with their exchange symmetry) for the states needed.

Not modelled: numerical quadrature accuracy, splines, GSL special functions,
wall-clock/logging output, command-line help text, OpenMP memory model (only the
interleaving of loop iterations is modelled).

## Axioms

`#print axioms` of every theorem named in `MANIFEST.json` gives a subset of `propext`,
`Classical.choice`, `Quot.sound`.  The development contains no `axiom`, `sorry`, `admit`,
`native_decide` or `bv_decide`.
