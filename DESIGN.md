# Design

Target: peridigm (C++), pinned source in `/repo`. The model is written in Lean 4
(4.33.0, with single Mathlib modules) under `lean/Verif`. Nothing of `/repo` is
built or executed; the model is a hand translation, function by function, and every
definition cites the file and lines it models.

## Layout

Each topic `X` consists of

* `lean/Verif/X/Model.lean`: the functions of the code, with citations and a note on
  every simplification;
* `lean/Verif/X/Spec.lean`: a small specification written without the model's helpers
  (only where the theorem statement needs vocabulary of its own);
* `lean/Verif/X/Props.lean`: the property theorems, each followed by an `example`
  showing a concrete case that satisfies its hypotheses;
* `lean/Verif/X/Lemmas.lean`: helper lemmas (optional).

`MANIFEST.json` maps property ids to exact theorem names. `seeded/LOG.jsonl` records
the mutation experiments.

## Trusted base

* Lean's kernel (4.33.0) and the axioms `propext`, `Classical.choice`, `Quot.sound`
  (whatever each theorem uses is a subset of these). No axioms are added, there is no
  `sorry`, `native_decide` or `bv_decide`.
* The translation from C++ to the definitions in the `Model` files (by reading).
* Numbers: `double` is modelled by exact real numbers (or an arbitrary linearly ordered
  field); rounding, overflow, NaN and infinities are NOT modelled. `int` is modelled by
  `Nat`/`Int` without overflow.
* Trilinos: `Epetra_BlockMap` is a duplicate-free list of global ids per rank with
  `LID`/`GID` look-up; `Import`/`Export` with `Insert`/`Add` have their documented
  semantics; MPI reductions are mathematically exact reductions. Zoltan, NOX, Belos,
  AztecOO, Exodus, the function parser (RTC/muParser) and file systems are not modelled
  (they appear as arbitrary functions or oracles where needed).
* Undefined behaviour and aborts of the C++ code (null dereference, out-of-range access,
  `TEUCHOS_TEST_FOR_*`) are distinct outcomes in the models where they can occur.

Where the code does not have the property a user would expect, the model follows the
code: the negation is proved with a concrete witness and the provable part is kept as a
theorem with suffix `_partial`. These cases are listed under "Disagreements" below.

## Properties

* **C01 Field ids are stable, unique and dense.** Registry as a list of specs plus label map; `step` = one getFieldId call (returns id or terminates). Invariant by induction over call histories.
* **C02 One label, one specification (case-insensitively).** Same model; case-insensitive uniqueness invariant; rejected call is a stutter step; label map refines the spec list.
* **C03 Two-step data shift correctly at every state update.** DataManager as three optional stores (NONE, N, NP1) with write/updateState steps; refinement to an abstract per-field two-slot history.
* **C04 State-less data survive state updates.** Same model, frame property by induction over histories.
* **C05 Global data are shared by all blocks and shift once per step.** Static global store shared by a family of managers; updateState of every block in any order; induction over the list of blocks.
* **C06 Querying for data never crashes and agrees with fetching it.** allocateData/hasData/getData with null dereference and out-of-range indexing as distinct outcomes. Expected false for configurations without all three states: negation with witness, partial theorem under the precondition.
* **C07 Copying owned data matches entries by global id.** Epetra map = duplicate-free list of global ids, LID = index look-up; the copy loop as a fold; value-by-gid theorem for all maps.
* **C08 Redistribution keeps every point's data.** Family of per-rank maps; Import(Insert) as look-up of the owner's value; composition scatterToGhosts ; import.
* **C09 Neighborhood list encoding is faithful.** Flat list encode/decode, literal traversal with running pointer; round trip and bond enumeration by induction.
* **C10 Block neighborhoods equal the global neighborhoods.** createMapsFromGlobalMaps / createNeighborhoodData modelled on gid lists; refinement theorem: decode by gid equals the input neighborhoods.
* **C11 Blocks partition the owned points and ghost exactly what they need.** Same model: partition, ghosts, bond map.
* **C12 Force assembly over blocks is the sum of all contributions.** Export(Add) per block and rank, accumulated; theorem: equals finite double sum; permutation invariance.
* **C13 Post-precompute synchronisation gives every copy the total.** DataManagerSynchronizer::synchronize as sum of exports and insert to all copies. Second half expected false (ghost copies are summed again): negation with witness.
* **C14 Redistributing a neighbor list preserves neighbors.** RebalanceNeighborhoodList: counts, padded neighbor vectors (-1 for no neighbors), overlap map, final list; refinement by gid.
* **C15 Neighbor search finds exactly the points within the radius, on any number of processors.** Radius search over an abstract spatial decomposition (Zoltan box assignment specified, not modelled): completeness for a constant radius, negation for variable radii.
* **C16 Bond filters cut bonds symmetrically.** Filters over the reals; symmetry theorem via t -> 1-t.
* **C17 Internal forces conserve linear momentum.** Bond kernels as folds over the enumerated bond list scattering +f V_j and -f V_i; induction over bonds.
* **C18 Internal forces conserve angular momentum.** Same fold, cross product with the bond direction.
* **C19 Internal forces are objective.** Orthogonal matrix acting on positions; commutation through the folds.
* **C20 No force in a rigidly moved reference configuration.** Extension vanishes under isometry; corollary of the kernel definitions.
* **C21 Broken bonds carry no load.** Damage factor (1-d) at d=1; contribution per bond zero.
* **C22 Weighted volume is positive for connected points.** Sum of non-negative terms, permutation invariance.
* **C23 Plastic flow respects the yield condition and is irreversible.** Return mapping per point over the reals; invariant over histories.
* **C24 Viscoelastic back-extension stays within the loading history.** exp-based coefficients are convex; invariant over histories.
* **C25 Critical-stretch damage is irreversible and complete.** Bond-wise step function; induction over histories.
* **C26 Point damage is the fraction of broken bonds.** Mean of bond flags; same histories.
* **C27 Time-dependent critical-stretch damage is irreversible.** Model of the aliasing assignment (no value copy) with two swapped buffers; negation with witness history, partial theorem for single steps.
* **C28 Stress-based damage accumulates monotonically within [0,1].** Both update rules; induction over histories.
* **C29 Contact forces are short-ranged, repulsive, and balanced.** Pair force with and without friction as fold over the contact list.
* **C30 Contact search excludes bonded pairs and nothing else.** contactSearch filter and local-id translation on lists.
* **C31 Each pair of blocks has one contact definition, the last one given.** Set of (id,id,model) in lexicographic order as in std::set; expected false: negation with witnesses (order, last definition, empty set iterator); partial theorem for exact duplicates.
* **C32 Prescribed displacements are met at every explicit step.** One dof through the explicit step with DirichletIncrementBC; induction over steps with arbitrary accelerations.
* **C33 Body forces on the same node add up.** External force vector, clear then apply (insert) per definition; expected false: negation; partial for disjoint definitions.
* **C34 Constrained residual rows are zeroed and nothing else.** Fold of zero-insertions over the BC list.
* **C35 Constrained rows and columns of the tangent decouple.** Matrix as function on a finite dof set; the row/column/diagonal passes as in the code.
* **C36 Explicit integration covers the requested time span.** floor over the reals.
* **C37 Positions always equal reference position plus displacement.** Velocity-Verlet step on whole vectors; invariant.
* **C38 Explicit dynamics conserves total linear momentum.** Velocity-Verlet combined with the C17 kernel; invariant over runs.
* **C39 Explicit integration is time-reversible.** Reversal argument for the kick-drift-kick step as coded.
* **C40 Load steps advance monotonically to the final time.** Load-step list as in the code with insertion of midpoints and the reduce-all option; invariant over attempts driven by an arbitrary oracle of failures; negation for reduce-all.
* **C41 Adaptive load stepping always terminates.** Same transition system; explicit bound on attempts / termination measure.
* **C42 Unconverged load steps are never committed.** Same transition system with committed displacement/state counters.
* **C43 Implicit dynamics keeps the Newmark relations and enforces prescribed motion.** Newmark update with arbitrary solver increments; relations proved; prescribed motion expected false (BC applied only once): negation.
* **C44 Line search returns the best candidate and leaves the increment unchanged.** Candidate evaluation and selection; multiphysics pass uses a fixed epsilon: negation.
* **C45 Preconditioner is rebuilt when it exceeds its maximum age.** Case analysis of the age counter; induction over the calls of a load step; concrete negation for every maximum age above one.
* **C46 The nonlinear residual depends only on the current trial state.** Induction over the evaluations: with displacements only each evaluation replaces everything it reads except the displacements; with fluid pressure the force is accumulated (closed form by induction, concrete negation).
* **C47 Degrees of freedom get disjoint contiguous slots.** Running offsets; double initialisation expected false: negation.
* **C48 Tangent sparsity covers all couplings and only those.** Set of column indices built per neighborhood; iff characterisation.
* **C49 Elastic constants are converted consistently.** Decision table over optional constants; algebra over the reals; plane strain/stress negation.
* **C50 Horizon look-up honours block and default entries.** Association list / map semantics; input names list.
* **C51 Influence functions are bounded, supported on the horizon and selectable.** Real functions; cached function pointer as state.
* **C52 Block and node-set reductions report minimum, maximum and sum.** Fold with initial values as coded (DBL_MIN for maximum: expected false for negative data): negation, partial.
* **C53 Nearest-point tracking selects the closest point.** Scan with ties, MinAll reductions; equals lexicographic minimum.
* **C54 Reported global momentum is the magnitude of the total momentum.** Sum of per-block norms; equal for one block, negation for two.
* **C55 Kinetic and strain energy outputs are non-negative and additive.** Energy formulas; strain energy formula lacks the square: negation; kinetic part proved.
* **C56 Critical time step is a positive lower bound over all points.** min over points; positivity.
* **C57 Block names map to the numeric id they carry.** String functions on character lists; negation for names with capital letters of GRAIN; proved for lower-case prefixes.
* **C58 Loaded field data are interpolated between the bracketing times of the data file.** Loader state machine; rejected time is remembered: negation of the second half; interpolation proved.
* **C59 Interface aperture output corresponds to the output time.** Write-then-update order: negation (one output late), partial: value equals the previous output's.
* **C60 Restart continues where the run stopped.** Time written with six significant digits; negation; partial for representable times.
* **C61 Initial damage model breaks exactly the bonds cut by its bond filters, for the whole run.** Initialisation loop over bonds and filters (the filters of C16), run with the no-op evaluation.
* **C62 Bonds broken by the interface-aware damage model stay broken.** Same buffers as C27; negation with witness; monotonicity within an evaluation.
* **C63 Contact acts between the blocks, and with the models, the input's interactions name.** Choice of model per block as a function; negation with a witness and the single-model part.
* **C64 Node sets hold exactly the listed nodes, and each processor uses its own part.** Token list of the stream extraction loop; localisation by position in the owned map.
* **C65 Reactions are the internal forces of the constrained unknowns and zero elsewhere.** Fold over conditions and nodes writing single entries; exact description of every entry.
* **C66 The assembled internal force of a body has no resultant force and moment.** Composition of the kernel theorems C17/C18 with the assembly theorem C12.
* **C67 Initial conditions set exactly the covered entries.** Fold of assignments; last writer by induction over the list of definitions.
* **C68 Prescribed temperatures are met, and temperature changes count from time zero.** Same machinery as C32/C33 on the temperature vectors.
* **C69 A thermal flux condition imposes the given flux.** Negation with a witness family.
* **C70 Quasi-static prescribed displacements follow the prescribed function.** Invariant of the nonlinear iteration: increments vanish at constrained rows, so the committed increment is the one written by the boundary condition; induction over accepted attempts.
* **C71 A rebuilt preconditioner is the inverse of the tangent blocks.** The cofactor formula is a two-sided inverse (field arithmetic); induction over the blocks; negation for a tangent that is not recomputed.
* **C72 The residual given to the nonlinear solver vanishes exactly in equilibrium.** From the form of the residual and the exactness of the inserted zeros (C34).
* **C73 Load steps with NOX follow prescribed displacements and keep the kinematic fields consistent.** Increment and velocity written by the boundary conditions stay in proportion (induction over the conditions); induction over load steps; the behaviour of NOX is an arbitrary function that keeps the zeros of its initial guess.
* **C74 The deformation gradient of a correspondence material is exact for affine motion.** Shape tensor and its inverse as 3x3 matrices; linear algebra over the fold of the bonds.
* **C75 Hourglass forces vanish under affine motion.** Corollary of C74 for the hourglass vector.
* **C76 Correspondence forces have no resultant.** Scatter lemma of the bond kernels (C17) applied to force state times bond.
* **C77 Correspondence forces have no moment for symmetric stresses.** The sum of outer products of bonds and pair forces is the Kirchhoff stress, which is symmetric; its axial vector vanishes.
* **C78 The partial stress of a correspondence material is its Piola stress.** Same sum with reference bonds, by the inverse shape tensor.
* **C79 The rotation tensor of a correspondence material stays a rotation.** Gram matrix of the coded exponential; expected false because of the sign: negation and exact characterisation for rigid spin.
* **C80 Rigid motion causes no stress in correspondence materials.** Velocity gradient exact for affine velocities as in C74; its symmetric part vanishes for a spin.
* **C81 The elastic correspondence stress is Hooke's law of the accumulated strain.** Induction over steps; linearity of Hooke's law.
* **C82 Perfect plasticity keeps the stress within the yield surface.** Radial return over the reals; induction over steps.
* **C83 The equivalent plastic strain measures the plastic strain.** Negation with a concrete step; Cauchy-Schwarz gives the bound.
* **C84 Isotropic hardening keeps the stress within the hardened yield surface.** Negation with a concrete step; exact statement of what the update guarantees.
* **C85 The blocks of the analysis are the blocks of the mesh.** Induction over definitions and names; counting argument (a duplicate-free list of the right length is a permutation).
* **C86 The left stretch stays symmetric and follows the velocity gradient.** trace(V)I-V is positive definite if V is; its inverse gives the axial vector that makes the rate symmetric.
* **C87 A finite-difference tangent can always be assembled.** Invariant: the scratch matrix is at least as large as needed and every entry of the leading block is written. Expected false for a point without neighbors (map with an element without entries): termination.
* **C88 The finite-difference tangent is the central difference of the assembled force.** Exact content of the scratch matrix, then of the sparse matrix, by induction over columns, neighborhoods and processors.
* **C89 The matrix of implicit dynamics is the derivative of its residual.** C88 together with the model of implicit dynamics; counterexample computed.
* **C90 Every material can produce a block-diagonal tangent.** As C87; for the negation, every outcome is a finished assembly or a termination, and the former is impossible.
* **C91 Finite-difference tangents work for coupled unknowns.** The last point visited addresses beyond the end of the force array.
* **C92 A warning about ties is printed exactly if several points are nearest.** The flag counts the points at the local minimum; counterexample computed.
* **C93 Momentum vectors reported for points.** Calculation.
* **C94 Interfaces are the pairs of neighbouring elements with a common face.** Membership in the list of interfaces characterised by induction over the elements; number of common nodes against common faces; counterexample computed.
* **C95 Restart directories written before are kept.** Names are injective in the number, the number is read back; induction over the solvers.
* **C96 An explicit analysis that is stopped and restarted gives the same result.** Simulation between the run in one part and the second part; number of steps is additive; counterexample computed.
* **C97 The elastic internal force is the negative gradient of the stored energy.** Closed forms of dilatation and energy as sums over bonds, derivative of a bond length, algebra of the sums at a point, power of the scattered bond forces; counterexample with three collinear points.
* **C98 The stored elastic energy is non-negative and zero only for undeformed bonds.** Energy as a sum of squares with non-negative coefficients; frame invariance from the extensions.
* **C99 The acceleration in the output is the acceleration of the points.** Direct computation from the two formulas.
* **C100 Forces, neighborhood volumes and numbers of neighbors in the output.** Induction over the points with the position in the neighborhood list as invariant.
* **C101 The steps requested are written to the output file.** Induction over the calls; records characterised as a filtered, renumbered list.
* **C102 The output frequency applies to the steps of each solver.** Splitting the calls of the earlier solvers from those of the later one.
* **C103 Diffusion conserves heat.** Flux as a sum over neighbors; contributions antisymmetric in the two ends cancel in the double sum over points; counterexamples with two points.
* **C104 Heat flows from hot to cold.** Sign of each term of the sum over bonds.
* **C105 Steady temperatures are unique and lie between the prescribed ones.** Discrete maximum principle: the maximum propagates along bonds until it reaches a prescribed point; uniqueness by linearity.
* **C106 Pore fluid is conserved and flows from high to low pressure.** Flow as a sum over bonds; each bond adds opposite amounts weighted by volume.
* **C107 Damage makes the solid more permeable.** Monotonicity of the logistic weight; counterexample with two points for every positive alpha.
* **C108 Pore pressure acts as an internal pressure.** Scatter lemma for central pair forces; virial as a sum over bonds regrouped by points, weighted volume cancels.
* **C109 The vector Poisson material solves three diffusion problems.** Scatter lemma; quadratic form of the bonds; each pair of points contributes from both ends.
* **C110 Implicit diffusion writes balanced temperatures.** Invariant of the nonlinear iteration (only free temperatures change, residual is that of the current vectors); chain of accepted load steps; reactions and zeroed entries from C34/C35.
* **C111 Implicit diffusion adds each entry of the increment to its own unknown.** Exact effect of the insertion of zeros and of the update; witness with one node and four unknowns.
* **C112 Implicit diffusion needs one increment and reaches the steady state.** The flux divergence is linear in the temperature, so the residual after an exact increment is zero; then C105.
* **C113 A generated box contains every cell once, in the right place.** Invariant of the three nested loops with their start variables: the cells visited are those with the next ids and the cursor is the following one; induction over the processors.
* **C114 The neighbors in a generated box are the points within the horizon.** Number of times an id is listed as a product of three counts; a strict inequality of distances bounds the difference of indices by the integer part of the ratio; witness for the default.
* **C115 Generated meshes stay within the memory reserved for them.** Simulation between the counting loops and the walk; the cell itself is in its window and is skipped.
* **C116 A generated cylinder contains every cell once, in the right place.** C113 for the walk; sums over the cells as a threefold sum.
* **C117 The neighbors in a generated cylinder are the points within the horizon.** Visits around the ring as residues; bijection t -> 2r - t; witnesses with one ring of four cells.
* **C118 Element volumes and centroids are exact.** Sum over the 24 tetrahedra rewritten as flux through the faces (edges cancel); the integral of the Jacobian by exact quadrature for quadratic polynomials in each variable; polynomial identity.
* **C119 Triangles are classified correctly against a sphere.** Separating axis argument: nearest point of the triangle by compactness, case distinction on the positive weights.
* **C120 Elements are classified correctly against a sphere.** C119 for each triangle of the surface; the nearest point of a solid that does not contain the center is on the surface, shown with the determinants of the tetrahedra around a point.
* **C121 The proximity search delivers all neighbors to the processor that asks.** Composition of the balanced search (C15) with the two rebalancings (C14): the lists travel with the ids.
* **C122 Every element of an Exodus mesh becomes one point.** Invariant of the loops over blocks and elements: position k of each array belongs to element k; prefixes of the folds.
* **C123 Node sets of the mesh become sets of points.** The table from nodes to elements contains exactly the incidences; sorting and uniqueness keep the members.
* **C124 Element-horizon intersections decide the neighborhoods.** The search with horizon plus largest element dimension finds every element with a point in the horizon (triangle inequality, diameter of a hull); refinement keeps exactly those that intersect (C120).
* **C125 Bonds between blocks can be omitted.** The matrix has a one on the diagonal only; the filter over the encoded lists (Neigh) keeps order and offsets.
* **C126 A text mesh is read line by line.** Splitting at line ends inverts joining; decomposition of a line into blanks and body; induction over the numbers read.
* **C127 Points of a text mesh end up in their blocks.** Printed integers are injective and have no letter e; invariant of the loop over the points; scientific notation has an e.
* **C128 Load balancing keeps every point with its data.** The shift of the points that stay is a partition of the points by the export list; packing and unpacking a point are inverse on words; the union over processors is a permutation.
* **C129 The hardening plastic material keeps the hardened yield condition.** The cubic is the yield condition with the new multiplier. Trigonometric branch: the three values factorise the cubic (triple angle), so one is positive iff the constant term is negative. Cardano branch: product and sum of cubes give a root, the remaining quadratic factor is non-negative. The discriminant is a square, so the division is never by zero. Invariant over steps.
* **C130 The forces of the hardening plastic material are balanced and objective.** As C17, C18, C19 and C21: the kernel scatters central pair forces.
* **C131 The interface-aware damage model breaks a bond at the smaller critical stretch of its two ends.** Set-up: the sum over all copies is the value of the one owner (C13 gives the sum), so after the synchronisation every copy has the value of its block. Evaluation: loop invariant of the bond loop with the skip rule.
* **C132 The PALS material reproduces classical dilatation and energy at every point, also near the surface.** Closed form of the repair loop: modes taken out have multiplier zero, the other equations hold as they were. Exchanging sums turns them into the matching conditions. Derivative of the length of a bond at the reference configuration. Definedness: the matrices are Gram matrices.
* **C133 The forces of the PALS material are balanced, objective and the gradient of its energy.** As C17 to C20; the gradient by differentiating the energy of each point, using the weighted volume of the set-up.
* **C134 The PALS material takes no notice of bond damage.** The definitions do not use the damage; the force of a concrete pair follows from C132.
* **C135 The forces of the linear LPS material balance, with moments about the reference positions.** The force loop is the scatter loop of C17 with pair forces along the bond in the beginning. Witnesses: a bar turned by a right angle, a broken bar.
* **C136 The linear LPS material is linear, reciprocal and stable, and free of force under infinitesimal rigid motions.** Closed forms for dilatation and force at a point. The power is a bilinear form, point by point; completing the square with the weighted volume of the set-up shows the sign.
* **C137 The linear LPS material is the linearisation of the nonlinear elastic material.** Derivatives of elongation, dilatation and tension at the reference configuration, where the tension vanishes.
* **C138 Bond-associated correspondence: deformation gradients of polynomial fields are exact.** Polynomials without constant term are identified with coefficient vectors over the monomials in the order of the code. A lower bound for the quadratic form of the moment matrix bounds its singular values from below, so that the pseudo-inverse is the inverse. An invariant over analyses (weights current wherever flagged) carries this to every evaluation.
* **C139 Bond-associated correspondence: forces sum to zero, broken points have none, evaluations are defined.** The force loop is the scatter loop of C17.
* **C140 Bond-associated correspondence: power and moments.** A work identity for an arbitrary field, from exchanging the two copies of each bond; the trace gives the power, the axial vector with the present positions the moment.
* **C141 Bond-associated correspondence: the gradient at a bond.** Rank-one correction; an invariant over analyses says that both copies of a bond have the same state.
* **C142 Bond-associated correspondence: rigid motions of the elastic material.** Affine fields are exact (C138), so the velocity gradient of every bond is skew.
* **C143 Nonlinear hardening plasticity: the stress is on the yield surface of the recorded plastic strain.** The yield stress is concave, so Newton's iterates stay on one side of the root: an invariant of the loop.
* **C144 Nonlinear hardening plasticity: flow rule.** Closed form of the stress after the return from the same invariant.
* **C145 Nonlinear hardening plasticity: the iteration ends.** The residual shrinks by a fixed factor per pass because the slope does not grow.
* **C146 Nonlinear hardening plasticity is isotropic.** The numbers of the iteration do not depend on the stress carried along.
* **C147 Nonlinear hardening plasticity: whole analyses.** Induction over runs with C143 to C145.
* **C148 Nonlinear hardening plasticity: stress triaxiality.** Full claim refuted by a one-step run; what is stored instead is proved.
* **C149 Each block gets its material with its own horizon.** Induction over the list of blocks.
* **C150 Every point has the density of its block.** Induction over the blocks; the points of a block are those of its owned map (C11).
* **C151 The tangent matrix fits the solvers.** Case analysis of the flags collected from the solvers; full claim refuted by two solvers.
* **C152 Time-dependent critical stretch and friction follow the user's functions.** Induction over the steps with the log of evaluations as ghost state; full claim refuted by a one-step run.
* **C153 Every damage model works with every solver.** Invariant: the damage models know what they need; refuted for the interface-aware model.
* **C154 Points that lost their bonds are taken out of the system.** Induction over the points of the block, then C34; refuted by a mesh of two points.
* **C155 The quantities asked for in output lists are computed.** Induction over the entries of the lists; refuted by two spellings and by a class without parameters.
* **C156 A viscoplastic step keeps mean stress and direction.** Case analysis of the step with the bisection as a total function into the unit interval.
* **C157 The viscoplastic increment solves its equation.** Invariant of the bisection (a root in the interval), intermediate value theorem, induction over the passes; runaway by induction.
* **C158 Viscoplastic stress and recorded plastic strain fit together.** Cauchy-Schwarz for the projection; refuted by a shear step from rest.
* **C159 The viscoplastic stress depends continuously on the deformation.** Bound of the flow stress over all increments of the interval; refuted in slow shear.
* **C160 Plasticity of the correspondence materials is isotropic.** Conjugation invariance of traces and contractions.
* **C161 Runs of the viscoplastic material.** Induction over the run and the points.
* **C162 Hypoelastic velocity gradients are exact.** The reproducing property of the gradient weights of C138 at the current positions.
* **C163 Hypoelastic forces balance, and vanish for what has broken off.** Scattered sums; weights of broken bonds vanish; witnesses on two points.
* **C164 Hypoelastic points beyond the horizon do not interact.** Bonds beyond the horizon have no influence; witness on two points.
* **C165 Power and moments of the hypoelastic forces.** The work identity of C140 with Jacobian determinants as part of the volumes; induction over the run.
* **C166 Rigid motions of the hypoelastic material.** Affine velocities; trace of an orthogonal matrix.
* **C167 Plasticity of the hypoelastic materials.** Induction over the run on C82; case analysis of the hardening update; witness in shear.
* **C168 Hypoelastic deformation gradient, volume and strain agree.** Determinant of 1 + dt L.
* **C169 The k-d tree finds exactly the points within the radius.** The cube search (C170) and the inscribed cube.
* **C170 The k-d tree finds exactly the points in a cube.** Invariant of the tree: the cuts separate the points below a node; induction over the tree.
* **C171 The nearest neighbor search of the k-d tree.** Induction over the tree; a cell that the cube around the candidate misses holds no closer point.
* **C172 Construction of the k-d tree.** Sorted permutations are kept by stable partitions; induction over the depth; a subtree no point of which lies below the cut is built anew for ever.
* **C173 The two search trees can be exchanged.** Both sets are those within the radius.
* **C174 The shear correction factor restores the classical energy.** Both the probe and the energy are (15 mu / 2m) times the same sum of squared deviatoric extensions; the factor divides by the largest of the three.
* **C175 The shear correction factor of the material with hardening.** As C174 with the inverse factor; witness with two neighbors.
* **C176 Which bodies can be given a shear correction factor.** The sum of squares vanishes iff all extensions are proportional to the lengths.
* **C177 What the shear correction factor depends on.** Extensions scale with the unit of length, so that the factor does not.
* **C178 Force and energy of the multiphysics material.** As C97: derivative of the energy at each point, partition of the bonds by their points.
* **C179 The deformation gradient is computed in every block.** Induction over the blocks with the flag; C74 for one block.
* **C180 The error is the integral of the squared difference of displacements.** Interval integrals of a polynomial; folds for the limits and counts.
* **C181 The global error is the sum over all points of all processors.** Induction over points, blocks and processors.
* **C182 The file of bonds shows the bonds.** A reader of the file format; the map from ids to positions is the index in the sorted list.
* **C183 The radius of a point.** Mathlib's volume of a ball.
* **C184 Nodal variables are read back from the output file.** a session of writes is unrolled into steps that do not touch each other's records; names are numbered injectively, points are placed by the owned map; reader functions use only the file
* **C185 Element variables are read back from the output file.** as C184; each block has its own record, the element number map locates a point
* **C186 Global variables are read back from the output file.** the index into the array of globals equals the number of the name
* **C187 The mesh in the output file is the mesh of the analysis.** positions in the node map and element map
* **C188 The node sets in the output file are the node sets of the analysis.** offsets of the concatenated node sets
* **C189 Each output section and processor has its own file.** digits of numbers are injective and padded to the same length
* **C190 The truth table of the output file is right.** rows of the truth table have the length of the name table
* **C191 Any variable of the analysis can be requested.** definedness of every step of a session, with witnesses for the missing cases
* **C192 Variables that the user switches off are not written.** the list is read by name only
* **C193 Contact forces are those of the contact law, for any processors and rebalances.** The invariant of the contact manager is that every contact block holds, on each processor, the points it owns with lists that the truth prescribes, and overlap vectors that agree with the global positions and velocities; preserved by rebalance, import and step. The sum over processors of the local forces is regrouped into the sum over contact pairs by induction over lists. Refinement: run = list of exact forces, for every distribution.
* **C194 The friction coefficient of a time-dependent contact model is the value of the function at the current time.** evaluateParserFriction is run as two calls of an arbitrary partial function of time and value; partial theorem for functions that ignore value; witnesses for a nonzero initial time and for a function that only assigns at some times.
* **C195 Contact blocks have the contact model of the input.** Symbolic execution of the choice of the model; induction over the blocks. Witness with two models.
* **C196 The forces of a run follow the contact interactions of the input.** std::set as a sorted list; the loop keeping the last tuple of each pair is proved to keep the greatest model name; non-effect on the models by determinism of the construction; witness with a nonzero force between blocks without interaction.
* **C197 A converted mesh has the points and blocks of the mesh.** The converter's loops are solved in closed form on sound discretizations; the file is shown well-formed, so that C122 and C123 apply to reading it; elements and ids are matched by induction over the blocks. Soundness is proved for every consistent file. Witness for scaled volumes.
* **C198 A converted mesh has the node sets of the mesh.** C123 applied to the file gives the members as the points at the places named; identity numbering gives the same sets; witness and a general theorem of undefinedness for ids beyond the number of points.
* **C199 Boundary layers of a converted mesh are the points near its faces.** The bounding box by induction over the points; the layers by induction over the loop; reading by C123.
* **C200 The neighborhood file determines the neighborhoods.** Numbers end at the first space; decimal representation is injective; induction over the arrays.
* **C201 Records show the solver's vectors in every copy of a point.** The copies into a block commute because the labels are distinct; import of a vector by the importer's choice; induction over steps and solvers with the invariant that importers find owners.
* **C202 Recorded hourglass forces are the sum of all contributions.** The summation is the synchronisation of C13; two steps swap the data back, so that the next solver sums sums. Witness.
* **C203 All fields of a record belong to the same moment.** The two steps of a field over the last two steps of a solver; witness.
* **C204 The internal force for an external driver is volume times force density.** C12 for the gathering; positions in the force vector are those of the volume vector because the maps agree; non-finite numbers are the top element, which absorbs sums.
* **C205 The set-up of the synchronisation is sound.** Induction over the blocks and over the list of fields; disjointness of label lists.
* **C206 Initial values survive the synchronisation.** All copies equal the sum after a synchronisation: replicate, then induction over the number of synchronisations.
* **C207 The dilatation of a linear LPS point does not depend on earlier evaluations.** The sum after precompute splits into owned LPS copies and what other blocks hold; the copies of other blocks after an evaluation are all equal to what was seen; induction over evaluations. Witness.
* **C208 The strain written by the bond-associated material is that of the deformation gradient.** Gradients are linear in the displacement while the weights are current (C138); the step adds sym(Fdot^T F') dt = (F'^T F' - F^T F)/2 + (F'-F)^T(F'-F)/2; induction over the steps.
* **C209 The stress written for a point is the stress of its bonds in affine motion.** Point and bond gradients are the same matrix in affine motion (C141); both levels then run the same recursion: induction over the evaluations.
* **C210 An elastic correspondence body brought back to where it started is free of stress.** Without spin, and with stretch and rate coaxial, the rotation stays one, so the stress adds Hooke of 1 - l/l' in each step (induction over the run); 1 - 1/r <= log r, strictly unless r = 1.
* **C211 An initial displacement stresses a correspondence body.** The material is initialised from the blocks, which hold the reference coordinates; rigid velocities give no rate (C80), hence no stress and no force but hourglass (C75).
* **C212 A correspondence body in its reference configuration has no stress at time zero.** The evaluation at time zero already uses the time step: one step of C210's lemma from the initial state.
* **C213 The tangent by automatic differentiation is the derivative of the internal force.** Tracks: a number holds value and derivative of a function of one coordinate; each operation keeps this. Assembly as for finite differences (C87, C88), on any kernel with derivatives.
* **C214 Finite differences approximate the tangent by automatic differentiation.** C88 and C213: central difference quotients of a differentiable function converge.
* **C215 The tangent of the elastic material is symmetric.** The derivative of the forces of a neighborhood in a direction as a bilinear form on fields; its dilatational part is a product of the two dilatation rates.
* **C216 Rigid motions and the elastic tangent.** The form for constant fields and for skew fields of the current positions; linearity.
* **C217 The elastic tangent is stable as long as no bond pushes.** The form is minus (bulk part + squares of deviatoric rates + tension times transverse squares); witness: bar compressed to one half.
* **C218 The force that is differentiated is the force that is computed.** Bonds of a point in the block and in its neighborhood correspond one to one with the same data; sums over bonds are split by point.
* **C219 Before yielding the elastic-plastic material responds like the elastic material.** Closed form of the bond force in an elastic step; bonds are summed by point.
* **C220 The elastic-plastic tangent is the derivative of the internal force off the yield surface.** Tracks as for C213, with the norm of the trial state tracked in plastic steps; off the yield surface the kind of the step does not change nearby, by continuity.
* **C221 Block diagonal tangents of elastic-plastic blocks.** The full local matrix does not fit the block diagonal sparsity (as C90).
* **C222 Below yield the elastic-plastic tangent is the elastic tangent.** Closed forms agree (C219 for a neighborhood) and derivatives are unique.
* **C223 The elastic-plastic tangent is symmetric.** The tangent of a neighborhood as a bilinear form; its skew part is the product of the mean of the trial state and an alternating form, and the mean vanishes for isochoric extensions and undamaged bonds.
* **C224 Plastic flow keeps the volume.** Invariant of a step: the dilatation makes the mean of the deviatoric extensions vanish, and the flow is along the trial state.
* **C225 Rigid motions and the elastic-plastic tangent.** The bilinear form of C223 is linear in each argument and sees only differences between points; rotations change no length.
* **C226 Damping makes the tangent of a quasi-static step definite.** The damped form is the form plus a multiple of the diagonal and of the square norm; a row is damped by its owner only, and the maximum norm is that over all processors.
* **C227 The matrices that quasi-static iterations use.** Invariant of the iterations: the stored matrix is the tangent of an earlier iterate damped exactly once, with its age; induction over the iterations.
* **C228 The diagnostics of the Jacobian.** The loop over the entries computes the difference with the stored copy; the copy equals the Jacobian because the transpose is written to another pointer.
* **C229 Data of the blocks before the first step.** A fold of imports over a table with pairwise different keys; each import copies the value of the owner.
* **C230 The vectors of the analysis.** The columns of the names are pairwise different and within range; then frame rules for reads and writes.
* **C231 The sizes of the elements and the length of finite differences.** The scan over the elements keeps the minimum and maximum; the reduction over processors is the minimum and maximum of these.
* **C232 Which components can be used together.** Invariant of the registry under registrations and look-ups; all requests of all components fit one table of labels (a calculation over the lists of the model), apart from four labels with two types, whose users are the conflicts.
* **C233 The tangent of the coupled material.** As for the elastic material: each number that carries derivatives tracks a function of one unknown; the kernels with such numbers track the kernels with plain numbers, in coordinates and pressures; then the assembly with four unknowns at each point.
* **C234 The block diagonal tangent of the coupled material.** Rows to which a block is added must be in the sparsity; the last unknown of the point with the largest number is not.
* **C235 The structure of the tangent of the coupled material.** The block of the pressures is a bilinear form, a sum over bonds of conductance times two pressure differences; the derivatives of numbers that depend on differences of coordinates only vanish along translations; columns by differentiating the balance of each neighborhood.
* **C236 A solid cylinder generated on several processors contains every cell once.** The walk through cores and rings is a run of consecutive ids as long as the locator it starts from is that of the next id; induction on the number of points left, then on the processors.
* **C237 A generated solid cylinder has the volume of the cylinder.** Sum over rings by the sum of the midpoints, telescoping to R^2 minus the square of the inner radius; the cores give the rest.
* **C238 The volume of a bond in a box mesh.** The nested loops are a sum over triples of part numbers; the parts seen from the other end are those counted backwards.
* **C239 The volume of a bond in a ring mesh.** The same sum in cylindrical coordinates; the angle found by atan2 has the sine and cosine of any angle of the point; offsets of the parts sum to zero.
* **C240 Volumes of bonds are stored in the order of the bonds.** The loops are those of the kernels with the volume of each bond visited; C09 gives the positions.
* **C241 States computed with volumes of bonds.** Folds are sums; for bonds stretched in proportion every term is a multiple of the term of the weighted volume.
* **C242 Plasticity of the perfectly plastic bond-associated material.** The loops apply C82's step to every entry; a run is a run of the base class with this update, so the yield bound is an invariant.
* **C243 Balance and objectivity of the perfectly plastic bond-associated material.** The update is local, so C139 and C140 apply; without rate of deformation the trial stress is the old stress, which is within the yield surface by C242.
* **C244 The progress display shows the progress.** Invariant over the calls: the line holds a bar of constant length and the cursor stands behind it; as many backspaces as characters overwrite it.
* **C245 The file of the interfaces describes the interfaces.** The offsets of the node table are those of the interfaces; number and map are inverse on the nodes of the mesh; filtering by node count commutes with the loops.
* **C246 Every processor sees one mesh.** The vectors of a stored mesh are concatenations by global id, which imports preserve; lookups in such vectors give the same function on every processor, and the loops of C124 use only ids of the overlap map.
* **C247 A generated mesh reaches the analysis unchanged.** Composition of C113, C128 and C09-C11: what is generated determines the points that a grid holds, load balancing permutes them, and the closed forms of maps and lists give the neighbors back by global id.
* **C248 The quantities of a record agree with one another.** The assignments of the objects in their order: each is a repetition, or writes a field that no earlier one writes or reads; induction over the list. The labels are new because the registry holds only names of the analysis, the classes and earlier labels.
* **C249 The boundary condition section of the input means what it says.** An inductive relation says which conditions a section holds; both directions by induction on the entries. Words by a lemma that relates tidying to the spelling; numbers by the uniqueness of rounding to even; lists by induction on the way they are written.
* **C250 A boundary condition takes the value its function has at the time asked for.** The compiled function is a program on its five variables; a case distinction shows that it agrees with the function of the model of the conditions if it only sets the value.
* **C251 The output sections of the input mean what they say.** The entries that the program puts in keep the section free of repeated names; lookup and membership then agree, and a case distinction over the ten valid entries shows what is accepted. The deck by induction on its entries; records by C101 and induction on the calls.
* **C252 The back extension of the viscoelastic material is integrated exactly.** The closed form of the solution is differentiated; uniqueness by an integrating factor and the mean value theorem. Subdivision by algebra with the functional equation of the exponential.
* **C253 A viscoelastic body that is held relaxes exponentially, whatever the time steps.** Induction on the steps of the hold; dilatations of one configuration agree at owned points.
* **C254 Held, the viscoelastic material is the elastic material with the relaxation modulus.** Forces are sums over bonds that are linear in the tensions; the tension of a bond is compared with the elastic one for a back extension that is a fixed share of the extension.
* **C255 Explicit dynamics conserves angular momentum.** One step changes positions along velocities and velocities along forces; the cross products cancel by the momentless forces at both ends of the step. Induction on steps.
* **C256 Explicit dynamics of the linear material conserves a discrete energy and is stable below the frequency limit.** The force of the linear material is linear and self-adjoint in the displacement, so the change of the discrete energy over a step is a difference of equal products. Stability by Cauchy-Schwarz with the frequency bound.
* **C257 Runs with the critical time step are stable.** The negation by the exact recursion for the stretch of two bonded points, which at least doubles in every step. The partial theorem combines C56 and C256.
* **C258 Implicit dynamics with average acceleration conserves energy.** Average acceleration makes the change of kinetic energy the work of mass times mean acceleration over the change of displacement; reciprocity of the linear material does the same for the stored energy. Missing forces are bounded by the norm at which the iteration ends (C43). Induction on steps; the first step by the exact solution for two bonded points.
* **C259 Explicit dynamics does not depend on the frame.** Induction on steps: a step is linear in positions, velocities and accelerations, and the evaluation carries the motion over to the forces. The elastic material by C19.
* **C260 Quasi-static solutions of the linear material do not depend on how they are found.** At a completed step the residual is within the tolerance at the free degrees of freedom (C42) and the others have the value prescribed for the time (C70), as the body force (C42). The force is linear (C136), so the difference of two solutions does little work against its own forces, and these resist (C136).
* **C261 Quasi-static solutions of the linear material minimise the potential energy.** The potential energy of other displacements exceeds that of the solution by the stored energy of the difference, which C136 makes non-negative, less the work of the remaining forces against the difference, which the tolerance bounds where nothing is prescribed and which is zero elsewhere. Reciprocity of C136 removes the mixed terms.
* **C262 Explicit dynamics of the linear material superposes.** Induction on steps; the force is linear (C136) and depends only on the displacements of the points of the body.
* **C263 Disturbances travel at most two horizons in a step.** Induction on steps. The force at a point is a sum over the bonds that touch it, and each term depends on the neighborhood of the first point of its bond. Distances by the triangle inequality.
* **C264 Explicit dynamics leaves an undeformed body undeformed.** Induction on steps with C20: the positions at which a step evaluates the forces are a rigidly moved reference configuration.
* **C265 Quasi-static solutions of the linear material superpose.** The forces of the difference between the combination and the solution vanish at free degrees of freedom and the difference vanishes at the others, so that its energy is zero (C136).
* **C266 Quasi-static solutions of the linear material are reciprocal.** Equilibrium at free degrees of freedom turns the work of the body forces into work of the internal forces, which is symmetric (C136).
* **C267 Implicit dynamics of the linear material superposes and does not depend on the solver.** Induction on steps: the difference of accelerations, weighted by mass and beta dt^2, is work of the internal forces against their own displacement, which is not positive (C136).
* **C268 Implicit dynamics conserves linear momentum.** Induction on steps with C43: the accelerations sum to the missing forces, which the tolerance bounds.
* **C269 Reactions carry the load.** C42 bounds the force that is missing at free degrees of freedom, C65 gives the reactions at the others, and the internal forces sum to zero.

## Modelled code

Collected from the citations in the `Model` files (definitions and the lines they model).

* `Verif/Assembly/Model.lean`:
  * Peridigm.cpp: 1541-1546
  * Peridigm_Block.cpp: 222-243
  * Peridigm_BlockBase.cpp: 79-97, 81, 99-117
* `Verif/Assoc/Model.lean`:
  * Peridigm.cpp
  * Peridigm_BondAssociatedCorrespondenceMaterial.cpp: 361-569, 525-541, 571-1026, 991-1010, 1000-1002, 1028-1111
  * Peridigm_BondAssociatedCorrespondenceMaterial.hpp: 87-99
  * Peridigm_ElasticBondAssociatedCorrespondenceMaterial.cpp: 97-215
  * Peridigm_ModelEvaluator.cpp: 75-110
  * correspondence.cxx: 282-287, 282-558, 560-599, 3039-3058, 3061-3256, 3098-3107, 3100-3107, 3120-3252, 3124-3243, 3126-3131, 3141-3143, 3147-3166, 3148-3152, 3150-3151, 3168-3169, 3171-3174, 3223-3239, 3272-3356, 3312-3345, 3359-3388, 3832-4083, 3833-3900, 3847-3849, 3850-3852, 3862-3870, 3872-3900, 4361, 4376-4483, 4427-4465, 4434-4436, 4437-4439, 4446-4455
  * elastic_correspondence.cxx: 276-425
* `Verif/Assoc/OutputModel.lean`:
  * Peridigm_BondAssociatedCorrespondenceMaterial.cpp: 378-402, 571-1026, 612-631, 617-618, 644-648, 697-717, 791-817
  * Peridigm_ElasticBondAssociatedCorrespondenceMaterial.cpp: 101-123, 103-107
  * correspondence.cxx: 1350-1375, 3389-3611, 3446-3606, 4093-4140, 4127-4138
* `Verif/Assoc/PlasticModel.lean`:
  * Peridigm_BondAssociatedCorrespondenceMaterial.cpp: 571-1026
  * Peridigm_ElasticPlasticBondAssociatedCorrespondenceMaterial.cpp: 70-85, 92-117, 119-238
  * elastic_plastic_correspondence.cxx: 437-624
* `Verif/BC/Model.lean`:
  * Peridigm.cpp: 4030-4037
  * Peridigm_BoundaryAndInitialConditionManager.cpp: 70-183, 93-180, 95-174, 205-286, 207-268, 216-217, 224-231, 265-267, 274-285, 288-296, 291-294, 298-302, 304-309, 311-314, 316-322, 324-370, 340-354, 340-367, 363-365, 372-416, 386-400, 386-413, 409-411, 424-427, 424-428, 433-504, 437-451, 437-503, 480-481, 486-501, 495-498
  * Peridigm_BoundaryAndInitialConditionManager.hpp
  * Peridigm_BoundaryCondition.cpp: 56-96, 66-77, 87-95, 98-148, 105-119, 157-187, 174-186, 178-185, 180-184, 189-200, 202-241, 208-209, 211, 226-240, 230-239, 235-237, 297-314, 304-313, 308-312
  * Peridigm_BoundaryCondition.hpp: 152-230
  * Peridigm_Enums.cpp: 175-195
  * Peridigm_Enums.hpp
* `Verif/Balance/Model.lean`:
  * PdZoltan.cxx: 229-342, 473-493, 496-588, 520-524, 544-585, 551-583, 590-799, 627, 652-685, 656-682, 673-680, 724-783, 727-781, 801-829
  * QuickGrid.cxx: 168-241
  * QuickGridData.h: 56-72
* `Verif/Body/Model.lean`:
  * Peridigm.cpp: 1536-1546, 1541-1546, 1543
  * Peridigm_ModelEvaluator.cpp: 57-160
* `Verif/BondVolume/Model.lean`:
  * Vector3D.h: 156-169
  * calculators.cxx: 116-168, 171-232, 187-203, 234-267, 270-296, 289-293, 298-319
  * calculators.h: 66-69, 80-97, 86-88, 90, 116-119, 123-137, 129-131, 148
  * material_utilities.cxx: 531-559, 542-546, 570-611, 613-681
* `Verif/Combine/Model.lean`:
  * Peridigm.cpp: 200-202, 288-456, 289-292, 294-299, 301-316, 319-360, 421-444
  * Peridigm_BondAssociatedCorrespondenceMaterial.cpp: 164-260
  * Peridigm_Compute_Acceleration.cpp: 60-61
  * Peridigm_Compute_Angular_Momentum.cpp: 61-65
  * Peridigm_Compute_Bond_Visualization.cpp: 77-80
  * Peridigm_Compute_Contact_Force.cpp: 60-62
  * Peridigm_Compute_Deformation_Gradient.cpp: 64-69
  * Peridigm_Compute_Force.cpp: 60-62
  * Peridigm_Compute_JIntegral.cpp: 67-74
  * Peridigm_Compute_Kinetic_Energy.cpp: 60-63
  * Peridigm_Compute_Linear_Momentum.cpp: 61-64
  * Peridigm_Compute_Neighborhood_Volume.cpp: 59-60
  * Peridigm_Compute_Nonlinear_Solver_Iterations.cpp: 64
  * Peridigm_Compute_Number_Of_Neighbors.cpp: 59
  * Peridigm_Compute_OBC_Functional.cpp: 59
  * Peridigm_Compute_Radius.cpp: 60-61
  * Peridigm_Compute_Stored_Elastic_Energy.cpp: 60-62
  * Peridigm_Compute_Stored_Elastic_Energy_Density.cpp: 60
  * Peridigm_ContactManager.cpp: 73-77
  * Peridigm_ContactModelFactory.cpp: 61-64
  * Peridigm_CorrespondenceMaterial.cpp: 82-97
  * Peridigm_CriticalStretchDamageModel.cpp: 64-67, 69
  * Peridigm_DamageModelFactory.cpp: 66-77
  * Peridigm_DiffusionMaterial.cpp: 76-79, 87
  * Peridigm_ElasticBondAssociatedCorrespondenceMaterial.cpp: 63-67
  * Peridigm_ElasticBondBasedMaterial.cpp: 83-88
  * Peridigm_ElasticCorrespondenceMaterial.cpp: 71-72, 74-75
  * Peridigm_ElasticHypoelasticCorrespondenceMaterial.cpp: 84-111
  * Peridigm_ElasticMaterial.cpp: 87-94, 96-97, 100
  * Peridigm_ElasticPlasticBondAssociatedCorrespondenceMaterial.cpp: 70-80
  * Peridigm_ElasticPlasticCorrespondenceMaterial.cpp: 66-69
  * Peridigm_ElasticPlasticHardeningMaterial.cpp: 89-99
  * Peridigm_ElasticPlasticHypoelasticCorrespondenceMaterial.cpp: 91-125
  * Peridigm_ElasticPlasticMaterial.cpp: 92-101
  * Peridigm_Field.cpp: 89-92, 94-159
  * Peridigm_Field.hpp: 155-158, 155-162
  * Peridigm_HypoelasticCorrespondenceMaterial.cpp: 155-238
  * Peridigm_InitialDamageModel.cpp: 60-62
  * Peridigm_InterfaceAwareDamageModel.cpp: 64-70, 69
  * Peridigm_IsotropicHardeningPlasticBondAssociatedCorrespondenceMaterial.cpp: 89-99
  * Peridigm_IsotropicHardeningPlasticCorrespondenceMaterial.cpp: 78-83
  * Peridigm_IsotropicHardeningPlasticHypoelasticCorrespondenceMaterial.cpp: 94-128
  * Peridigm_JohnsonCookDamageModel.cpp: 92-114
  * Peridigm_LCMMaterial.cpp: 100-105
  * Peridigm_LinearLPSPVMaterial.cpp: 92-100, 113
  * Peridigm_MaterialFactory.cpp: 87-128
  * Peridigm_MultiphysicsElasticMaterial.cpp: 113-123, 125-126
  * Peridigm_Pals_Model.cpp: 93-128
  * Peridigm_ShortRangeForceContactModel.cpp: 79-82
  * Peridigm_UserDefinedTimeDependentCriticalStretchDamageModel.cpp: 71-75, 77
  * Peridigm_UserDefinedTimeDependentShortRangeForceContactModel.cpp: 93-96
  * Peridigm_VectorPoissonMaterial.cpp: 64-67
  * Peridigm_ViscoPlasticNeedlemanCorrespondenceMaterial.cpp: 82-87
  * Peridigm_ViscoelasticMaterial.cpp: 76-84
  * Peridigm_VonMisesStressDamageModel.cpp: 86-94
  * compute_includes.hpp
* `Verif/Contact/InteractionsModel.lean`:
  * Peridigm_ContactManager.cpp: 153-216, 153-253, 156, 156-201, 157-166, 167-188, 171-185, 178-185, 191-201, 207-216, 236-254, 868-886
* `Verif/Contact/Model.lean`:
  * Peridigm_ShortRangeForceContactModel.cpp: 67-76, 97-261, 107-111, 123-260, 134-258, 137-257, 140-255, 142-143, 154-168, 214-223, 238-243
  * Peridigm_ShortRangeForceContactModel.hpp: 84-89, 91-95
* `Verif/Contact/RebalanceModel.lean`:
  * Peridigm_ContactManager.cpp: 486-866, 488-603, 495-558, 509-515, 509-558, 549-558, 650-659, 653-658, 664-685, 718-748, 721, 724-734, 758-765, 760-764, 785, 797-818, 849-863, 861
  * Peridigm_ContactManager.hpp
* `Verif/Convert/Model.lean`:
  * Peridigm_ExodusDiscretization.cpp: 88-204
  * Peridigm_MeshConverter_Main.cpp: 78-423, 121, 133-142, 135-393, 147-207, 148-149, 151-164, 152, 154-163, 167-173, 174-206, 224-286, 288-305, 313, 320-328, 321-366, 341-342, 346-360, 356, 377-387
  * Peridigm_NeighborhoodData.hpp: 126-141
* `Verif/Correspondence/Model.lean`:
  * Peridigm_CorrespondenceMaterial.cpp: 187-397, 198-201, 309-370, 314-320, 327-329, 331-368, 334-344, 359-368, 393-396
  * correspondence.cxx: 809-915, 843-844, 850-912, 854-856, 857-859, 861-862, 861-892, 869-871, 872-874, 876-878, 880-882, 884-892, 894-902, 917-1184, 984-1181, 988-1039, 989-991, 994-995, 1002-1004, 1005-1007, 1011-1013, 1015-1017, 1019-1027, 1041-1050, 1041-1110, 1052-1061, 1073-1081, 1083-1086, 1088-1100, 1107-1110, 1112-1121, 1123-1159, 1129-1156, 1130, 1142-1150, 1153-1155, 1161-1174, 1169-1170, 1173-1174, 1176-1180, 1251-1351, 1287-1288, 1295, 1299-1337, 1303-1305, 1317-1332, 1343-1345, 1367-1374
* `Verif/Correspondence/StartModel.lean`:
  * Peridigm.cpp: 516-532, 690-699
  * Peridigm_CorrespondenceMaterial.cpp: 121-185
* `Verif/Correspondence/StressModel.lean`:
  * Peridigm_ElasticCorrespondenceMaterial.cpp: 90-121
  * elastic_correspondence.cxx: 56-116, 83-115, 86-98, 87-88, 93, 96-98, 107-113, 111-113
  * elastic_plastic_correspondence.cxx: 56-239, 99-238, 102-114, 102-122, 116-122, 124, 127-132, 134-140, 142, 150-231, 151, 154-158, 169-174, 176, 191, 193-198, 200-205, 209, 211-231, 213, 216-217, 223-228
  * isotropic_hardening_correspondence.cxx: 56-326, 116-163, 120-132, 120-140, 134-140, 142, 145-150, 152-158, 161, 163, 165-178, 180-325, 192-198, 192-226, 204, 206-211, 213-219, 229-233, 239-318, 240-244, 256-261, 263, 278, 280-285, 287-292, 296, 298-318, 300, 303-304, 310-315
* `Verif/Damage/InterfaceModel.lean`:
  * Peridigm.cpp: 696-699
  * Peridigm_Block.cpp: 158-191
  * Peridigm_InterfaceAwareDamageModel.cpp: 98-110
  * Peridigm_InterfaceAwareDamageModel.hpp: 78-82
* `Verif/Damage/Model.lean`:
  * Peridigm_CriticalStretchDamageModel.cpp: 66-67, 83-106, 108-184, 136-164, 137-162, 147-155, 156-158, 168-183, 174-177
  * Peridigm_DataManager.hpp: 159-177
  * Peridigm_InitialDamageModel.cpp: 118-171, 132-150, 141-147, 173-179
  * Peridigm_InterfaceAwareDamageModel.cpp: 116-226, 140-178, 141-176, 184-225, 211-214
  * Peridigm_JohnsonCookDamageModel.cpp: 56-88, 82-85, 140-279, 209-257, 219-234, 226, 236-241
  * Peridigm_ModelEvaluator.cpp: 72-87
  * Peridigm_UserDefinedTimeDependentCriticalStretchDamageModel.cpp: 135-160, 162-241
  * Peridigm_VonMisesStressDamageModel.cpp: 56-82, 79, 122-211, 178-206, 183-188, 193-205
* `Verif/Data/Model.lean`:
  * Peridigm_DataManager.cpp: 67-274, 80-147, 82-146, 168-221, 197-201, 202-208, 227-248, 229-244, 232-242, 245-247, 249-273, 252-268, 467-484, 513-539, 518-526, 541-573, 549-557
  * Peridigm_DataManager.hpp: 71, 90-100, 159-175, 165-171, 198-254, 200, 232-244
  * Peridigm_Field.hpp: 73-88
  * Peridigm_State.cpp: 57-79, 63-67, 75-78, 81-100, 96-99, 116-121, 123-130
  * Peridigm_State.hpp: 70-73, 146-160
* `Verif/Deck/Model.lean`:
  * Peridigm_BoundaryAndInitialConditionManager.cpp: 60-68, 61-64, 70-203, 79-181, 82-84, 93-174, 205-286, 210-259, 212-215, 219-258, 220, 222-232, 224, 227, 238-256, 239-254, 244-248, 246-248, 261-269, 508-532, 528-529
  * Peridigm_BoundaryCondition.cpp: 66-77, 68, 70, 71-77, 72-75, 77, 98-148, 103-131, 164-166, 216-218, 250-252
  * Peridigm_Enums.cpp: 76-79, 81-90, 97-100, 101-104, 210-214, 213, 219-236, 238-257, 271-274, 273, 276-295, 307-321
* `Verif/Diffusion/Model.lean`:
  * Peridigm_DiffusionMaterial.cpp: 58-94, 145-198, 176-197, 185-188, 189-190, 191, 191-194
  * Peridigm_MultiphysicsElasticMaterial.cpp: 73-85, 195-262, 204, 243-260
  * Peridigm_VectorPoissonMaterial.cpp: 88-149, 125-142
  * nonlocal_diffusion.cxx: 55-188, 113, 115-186, 121-124, 156-163, 167-172, 177, 181, 183-184, 473-501
* `Verif/Dof/Model.lean`:
  * Peridigm.cpp: 4033
  * Peridigm_BoundaryAndInitialConditionManager.cpp: 473
  * Peridigm_DegreesOfFreedomManager.cpp: 11-42, 17-20, 22-26, 22-41, 24-25, 29-30, 34-35, 39-40
  * Peridigm_DegreesOfFreedomManager.hpp: 99-107, 117-130
* `Verif/Energy/Model.lean`:
  * Peridigm_Compute_Stored_Elastic_Energy.cpp: 73-101, 79-98, 96-97
  * Peridigm_ElasticMaterial.cpp: 174-236, 199-233, 209-210, 212-231, 223-227, 228, 230, 232
* `Verif/Exodus/Model.lean`:
  * Peridigm.cpp: 4402-4418, 4411-4415
  * Peridigm_BlockBase.hpp: 74-145
  * Peridigm_DataManager.cpp: 541-573
  * Peridigm_OutputManager_ExodusII.cpp: 96-108, 131-138, 189-190, 210-1050, 233-243, 250-467, 255-460, 256, 259-273, 275-278, 275-460, 281-308, 285-301, 306-307, 310-358, 311-340, 315-317, 322-339, 342-357, 343-452, 361-458, 364-457, 368, 369-453, 374, 380-382, 394-398, 414-423, 421-422, 424-432, 436-445, 444-445, 446-454, 469-900, 475-493, 496-512, 502-508, 519-525, 540-541, 544-546, 545-547, 549-871, 567-578, 593-598, 595, 598, 606-607, 645-650, 647, 650, 654-666, 677-689, 693-695, 693-787, 694-696, 696-698, 697-786, 700-711, 701-702, 714-740, 717-740, 751-760, 761-765, 771-780, 791-833, 796, 797-798, 798, 810, 811-813, 812, 825, 826-828, 827, 836-871, 839-867, 840-866, 841-865, 844-846, 902-1050, 909-927, 930-932, 999-1021, 1001-1020, 1052-1064
  * Peridigm_OutputManager_ExodusII.hpp
* `Verif/Explicit/Model.lean`:
  * Peridigm.cpp: 1290-1593, 1303-1315, 1316-1321, 1322-1332, 1388-1424, 1419-1423, 1447, 1447-1590, 1476-1501, 1480, 1501, 1569-1573, 1577
* `Verif/Fad/Model.lean`:
  * Peridigm.cpp: 4322-4326
  * Peridigm_ElasticMaterial.cpp: 62, 75-76, 141-172, 258-383, 271-372, 271-382, 281-288, 290-309, 340-346, 344-345, 347-361, 363-372
  * Peridigm_Material.cpp: 243, 253
  * Peridigm_ModelEvaluator.cpp: 133-160
  * elastic.cxx: 92-143, 99-123, 110-112, 113, 114-116, 125-130
  * material_utilities.cxx: 264-285, 274-276, 277-279, 280-282
* `Verif/Fad/PlasticModel.lean`:
  * Peridigm.cpp: 4322-4326
  * Peridigm_ElasticPlasticMaterial.cpp: 64, 78-79, 134-180, 201-330, 217-325, 217-328, 235-250, 282-318, 313-318
  * Peridigm_Material.cpp: 243, 253
  * Peridigm_ModelEvaluator.cpp: 133-160
  * elastic_plastic.cxx: 70-111, 93-98, 179-199, 201-270, 201-278, 227-247
* `Verif/Field/Model.lean`:
  * Peridigm_Field.cpp: 54-87, 89-92, 94-142, 103, 111-114, 111-115, 144-149, 151-159, 161-166, 168-171
  * Peridigm_Field.hpp: 62-68, 73-88, 90-94, 96-101, 108-146, 155-158, 170, 213, 221-225
* `Verif/Filter/Model.lean`:
  * BondFilter.cxx: 59-61, 65-80, 88-90, 95-106, 115-118, 149, 177-214, 200-203, 238-268, 261-264, 279-286, 312-350, 343-346, 373-384
  * BondFilter.h: 59-93, 95-222, 97, 106, 122, 131-149, 133, 151-184, 153-173, 166-172, 186-222, 188-210
  * NeighborhoodList.cxx: 714-716
  * Vector3D.h: 111-115, 117-128
* `Verif/Geometry/Model.lean`:
  * Peridigm_GeometryUtils.cpp: 52-67, 69-339, 87-103, 88, 105-106, 109-332, 117-325, 118-125, 341-356, 358-364, 375-392, 394-572, 429-436, 446-469, 446-571, 478-502, 511-519, 511-532, 574-646, 608-629, 608-645, 648-852, 712-834, 864-870, 872-880, 911-919
  * Peridigm_GeometryUtils.hpp: 55
* `Verif/Grid/Model.lean`:
  * Peridigm_PdQuickGridDiscretization.cpp: 142-147, 187-203, 211-213
  * QuickGrid.cxx: 160-165, 167-169, 243-253, 250-251, 378-381, 394-409, 397, 412-426, 416-421, 428, 443-449, 451-455, 457-465, 470-497, 484, 491, 493-496, 499-508, 510-647, 520-526, 552-633, 560-633, 563, 564-565, 567-632, 570, 571-572, 574-617, 577, 579-583, 585-586, 588-589, 593-594, 596-598, 596-612, 602-604, 606, 607-608, 614, 619-630, 637-644, 646, 649-691, 676-688, 679-687, 682-686, 693-710, 1320-1368, 1363, 1380-1397, 1433, 1440-1442, 1448-1453, 1455-1457, 1467-1470, 1530-1547, 1870-1883, 1870-1962, 1879-1883
  * QuickGrid.h: 95-121, 107, 116, 119, 149, 154-162, 168, 169, 176, 180-196, 186, 201-221, 211, 212, 223-228
  * QuickGridData.h: 56-72, 70
* `Verif/Grid/SolidModel.lean`:
  * QuickGrid.cxx: 443-449, 451-455, 1604-1610, 1604-1693, 1604-1847, 1623-1627, 1632, 1638, 1643, 1649-1655, 1665, 1675, 1706-1847, 1725-1728, 1755-1832, 1761-1832, 1764, 1766-1791, 1777, 1783-1788, 1794-1831, 1797-1799, 1800-1817, 1805, 1807-1816, 1846, 1870-1883, 1879-1883
  * QuickGridData.h: 56-72
* `Verif/Hardening/Model.lean`:
  * Peridigm_ElasticPlasticHardeningMaterial.cpp: 72-77, 149-196
  * elastic_plastic_hardening.cxx: 57-60, 62-254, 98, 117-253, 123-150, 124, 143-150, 174-251, 189-223, 229-242, 258-327, 268-270, 269, 270, 279-306, 291-296, 311, 311-324
* `Verif/Hypo/Model.lean`:
  * Peridigm_DataManager.hpp: 159-175
  * Peridigm_ElasticHypoelasticCorrespondenceMaterial.cpp
  * Peridigm_ElasticPlasticHypoelasticCorrespondenceMaterial.cpp
  * Peridigm_HypoelasticCorrespondenceMaterial.cpp: 61, 144, 326-482, 338, 484-934, 525-527, 936-1030, 978-979
  * Peridigm_HypoelasticCorrespondenceMaterial.hpp: 89-100
  * Peridigm_IsotropicHardeningPlasticHypoelasticCorrespondenceMaterial.cpp
  * Peridigm_ModelEvaluator.cpp: 75-110
  * correspondence.cxx: 602-808, 675-803, 690-697, 1399-1421, 1409-1416, 1452-1474, 1764-1849, 1801, 1832, 1964-2090, 2092-2129, 2131-2165, 2168-2370, 2205-2368, 2372-2748, 2508-2725, 2750-2905, 2908-3036
  * elastic_correspondence.cxx: 193-275, 427-600
  * elastic_plastic_correspondence.cxx: 242-436, 625-918
  * isotropic_hardening_correspondence.cxx: 328-613, 486-527, 722-1095, 935-980
* `Verif/Implicit/Model.lean`:
  * Peridigm.cpp: 3620-4016, 3641-3644, 3641-3649, 3652, 3699-3705, 3713-4015, 3718-3998, 3727-3729, 3730-3731, 3751-3759, 3766-3814, 3784-3853, 3855-3998, 3900-3912, 3914-3958, 3932-3995, 4003-4014, 4012-4014
* `Verif/KdTree/Model.lean`:
  * Peridigm_JAMSearchTree.cpp: 51-54, 60-63
  * kdtree.h: 93-96, 100-107, 131-145, 147-207, 150-154, 159-160, 166-169, 171-174, 176-178, 181-183, 185-187, 193-195, 216-224, 262, 350-357, 376-380, 388-398, 402-456, 431, 432, 458-479, 461, 462-463, 474-478, 481-565, 506-554, 512-522, 531-540, 549-554, 572-577, 579-609, 611-648, 642, 650-685, 691-698, 700-728, 729-763, 765-835, 837-901, 912-924, 928-990, 952-971, 973-989
* `Verif/LineSearch/Model.lean`:
  * Peridigm.cpp: 3364-3618, 3370, 3372, 3402-3617, 3408, 3409-3431, 3410-3419, 3410-3430, 3412, 3416, 3422-3426, 3427-3429, 3432-3438, 3433-3437, 3443-3444, 3443-3447, 3450, 3453, 3457-3462, 3465-3510, 3468-3490, 3469-3478, 3471, 3475, 3481-3485, 3486-3488, 3491-3497, 3492-3496, 3501, 3504, 3506-3509, 3520-3532, 3541-3591, 3543-3565, 3544-3553, 3544-3564, 3546, 3550, 3556-3560, 3561-3563, 3566-3572, 3567-3571, 3576, 3579, 3581-3590, 3594-3617, 3600-3613
* `Verif/Lps/Model.lean`:
  * Peridigm_LinearLPSPVMaterial.cpp: 62-126, 132-192, 163-169, 232-293, 262-288, 270-278, 285, 295-394, 327-393, 332-391, 349, 350-360
  * Peridigm_ModelEvaluator.cpp: 81-118
  * elastic_pv.cxx: 55-102, 104-160
  * linear_lps_pv.cxx
  * material_utilities.cxx: 55-83
* `Verif/Mech/Model.lean`:
  * Peridigm_ElasticBondBasedMaterial.cpp: 111-131
  * Peridigm_ElasticMaterial.cpp: 141-172
  * Peridigm_ElasticPlasticMaterial.cpp: 134-180
  * Peridigm_ViscoelasticMaterial.cpp: 115-156
  * elastic.cxx: 55-146, 99-123, 106-109, 109, 110-112, 113, 114-116, 117, 121-123, 125-130
  * elastic_bond_based.cxx: 55-124, 75-80, 95-114
  * elastic_plastic.cxx: 54-114, 116-280, 151-153, 165-279, 170-199, 179-199, 196, 201-278, 217, 217-253, 257-270
  * elastic_pv.cxx: 217-303, 286-293
  * linear_lps_pv.cxx: 87-117, 91-113, 100, 101-102, 120-205, 164-171, 172-196, 178-183
  * material_utilities.cxx: 161-188, 235-288, 265-285, 279-282, 284, 501-520
  * viscoelastic.cxx: 55-200, 78-80, 100-199, 109-111, 136-163, 168-172
* `Verif/Mesh/ExodusModel.lean`:
  * Peridigm_Enums.cpp: 307-311
  * Peridigm_ExodusDiscretization.cpp: 209-590, 245-313, 257-297, 327-459, 344-459, 345-392, 350-359, 373-384, 394-458, 398-457, 399-405, 401, 410-449, 500-519, 500-570, 512-517, 513-516, 525-552, 527-542, 531-538, 543-569, 553-567, 561-566
  * Peridigm_ExodusDiscretization.hpp: 63
* `Verif/Mesh/FilterModel.lean`:
  * Peridigm_ExodusDiscretization.cpp: 682-707, 691-697, 709-781, 712-731, 754-775, 764-771
  * Peridigm_TextFileDiscretization.cpp
* `Verif/Mesh/GhostModel.lean`:
  * Peridigm_ExodusDiscretization.cpp: 115-119, 148-169, 1052-1096, 1054-1095, 1060-1068, 1070-1076, 1088-1091
* `Verif/Mesh/IntersectModel.lean`:
  * Peridigm_ExodusDiscretization.cpp: 72-204, 77-79, 98-119, 315-325, 480-496, 488-494, 489-493, 861-886, 878-884, 888-942, 891-935, 898-932, 919-930, 922-925, 944-1050, 960-1015, 967-1012, 1034-1049, 1043-1048
  * Peridigm_ExodusDiscretization.hpp: 212-215
* `Verif/Mesh/TextModel.lean`:
  * Peridigm_Enums.cpp: 297-305
  * Peridigm_TextFileDiscretization.cpp: 127-249, 136-168, 140-142, 140-163, 141-162, 145, 146-150, 160, 170-193, 208-231, 208-249, 233-239, 236-237, 241-249, 243-244
* `Verif/Needleman/Model.lean`:
  * Peridigm_CorrespondenceMaterial.cpp: 133-134
  * Peridigm_DataManager.hpp: 159-175
  * Peridigm_ViscoPlasticNeedlemanCorrespondenceMaterial.cpp: 56-78, 65-78, 84-87, 100-117, 119-164
  * viscoplastic_needleman_correspondence.cxx: 56-408, 122-125, 122-384, 127-172, 127-384, 189-384, 203-277, 244, 244-277, 246-252, 246-262, 388-408
* `Verif/Neigh/Model.lean`:
  * NeighborhoodList.cxx: 264-280
  * Peridigm_BlockBase.cpp: 59-77, 119-231, 139-144, 150-157, 191-200, 233-285, 250-261, 254-258
  * Peridigm_BlockBase.hpp
  * Peridigm_CriticalStretchDamageModel.cpp: 136-164
  * Peridigm_Discretization.cpp: 57-70, 72-103, 78-93, 105-113, 115-131, 120-129, 124-128, 239-288, 257-282
  * Peridigm_NeighborhoodData.hpp: 56-148
  * Peridigm_PdQuickGridDiscretization.cpp: 234-276
  * Peridigm_TextFileDiscretization.cpp: 309-348
  * elastic.cxx: 94-145, 101-143
  * material_utilities.cxx: 260-287
* `Verif/Newton/Model.lean`:
  * Peridigm.cpp: 2480-2510, 2738-2877, 2742, 2744, 2746-2877, 2763-2823, 2765-2767, 2773-2806, 2790, 2791-2800, 2809-2822, 2818, 2828-2866, 3302-3318, 3302-3319, 3310, 3312-3313, 3318, 3321-3341
* `Verif/Nox/DiagModel.lean`:
  * Peridigm.cpp: 1887-1957, 1902-1932, 1908-1909, 1910-1913, 1915-1932, 1916-1929, 1925-1928
* `Verif/Nox/Model.lean`:
  * Peridigm.cpp: 108-109, 1595-1597, 1603-1647, 1603-1835, 1607-1609, 1616-1643, 1678-1699, 1679-1690, 1700-1736, 1702-1706, 1710-1742, 1710-1768, 1738-1742, 1746-1767, 1747-1758, 1761-1766, 1769-1783, 1774-1778, 1780-1818, 1805-1818, 1813, 1822-1832, 1958-2468, 2104-2465, 2113, 2115-2116, 2136-2137, 2140, 2146, 2153-2188, 2193-2194, 2213-2218, 2362, 2369-2385, 2369-2389, 2446-2453, 4192-4220
  * Peridigm.hpp
* `Verif/Outputs/FieldsModel.lean`:
  * Peridigm.cpp: 1432, 1584
  * Peridigm_Compute_Acceleration.cpp: 70-86, 75-82
  * Peridigm_Compute_Contact_Force.cpp: 72-109
  * Peridigm_Compute_Force.cpp: 72-108
  * Peridigm_Compute_Neighborhood_Volume.cpp: 88-106, 97-105
  * Peridigm_Compute_Number_Of_Neighbors.cpp: 75-80
  * Peridigm_OutputManager_ExodusII.cpp: 72-77, 72-143, 111, 125-126, 143, 210-256, 225
* `Verif/Outputs/GlobalModel.lean`:
  * Peridigm.cpp: 1294-1300, 1294-1315
  * Peridigm_Compute_Angular_Momentum.cpp: 83-165, 87-91, 114-155, 123-143, 155-161
  * Peridigm_Compute_Energy.cpp: 91-214, 91-219, 151-193, 156-186, 187-189, 194-196
  * Peridigm_Compute_Kinetic_Energy.cpp: 79-158, 124-136
  * Peridigm_Compute_Linear_Momentum.cpp: 81-171, 85-89, 105, 112-148, 120-136, 148, 163-167
  * Peridigm_CriticalTimeStep.cpp: 54-120, 54-127, 77-80, 82-120, 87, 87-117, 92-95, 97-113, 117
* `Verif/Outputs/Model.lean`:
  * Peridigm_Compute_Block_Data.cpp: 106-119, 106-217, 127-192, 129-140, 147-190, 195-214, 197, 199, 201
  * Peridigm_Compute_Nearest_Point_Data.cpp: 100-167, 102-135, 118-134, 119-121, 141-142, 149-150, 153-157, 200-239, 206-224
  * Peridigm_Compute_Node_Set_Data.cpp: 124-136, 124-239, 128-134, 146-157, 159-214, 167-213, 217-236
* `Verif/Pals/Model.lean`:
  * Peridigm_Pals_Model.cpp: 76-91, 140-231, 234-318, 320-392
  * pals.cxx: 144-169, 187-206, 189, 212-451, 235-404, 272-344, 277, 289, 312, 351-368, 375-404, 376-379, 381-404, 390-399, 563-609, 660-731, 715, 718, 719, 807-838
  * pals.h: 43-49, 51-66, 57, 68-82
* `Verif/Params/Model.lean`:
  * Peridigm.cpp: 1131-1218, 1143-1169, 1153-1168, 1161-1165, 1163-1165, 1171-1193, 1174-1192, 1184-1188, 1195-1205
  * Peridigm_Discretization.cpp: 209-237, 224-225, 229-230
  * Peridigm_ExodusDiscretization.cpp: 132-148
  * Peridigm_HorizonManager.cpp: 69-111, 73-109, 100-109, 101-108, 113-124, 115-122, 126-139, 127-135, 141-177, 142-150, 151-176
  * Peridigm_HorizonManager.hpp
  * Peridigm_InfluenceFunction.cpp: 59-62, 70-80
  * Peridigm_InfluenceFunction.hpp: 69-71, 73-80, 82-87, 121-147, 170-176
  * Peridigm_Material.cpp: 335-388, 337-362, 364-367, 371-385, 376-381, 391-433, 414-417, 421-430
  * Peridigm_TextFileDiscretization.cpp: 259-275
  * material_utilities.cxx: 148-159, 154, 154-156, 158
* `Verif/Porous/Model.lean`:
  * Peridigm.cpp: 4322-4326
  * Peridigm_ModelEvaluator.cpp: 133-160
  * Peridigm_MultiphysicsElasticMaterial.cpp: 63, 98-99, 110, 195-262, 353-508, 370-497, 370-506, 450-458, 459-462, 463-478, 480-497, 485-493
  * nonlocal_diffusion.cxx: 115-186, 134-181, 141-143, 168-169, 177, 181, 183-184, 469-510, 473-501
* `Verif/Post/Model.lean`:
  * Peridigm.cpp: 627-665
  * Peridigm_Compute_Bond_Visualization.cpp: 68-74, 70-74, 97-111, 99-118, 100-110, 105, 113-142, 115-141, 122, 124-129, 137-138, 155-202, 180-185, 190-194
  * Peridigm_Compute_Deformation_Gradient.cpp: 82-118, 87-111, 90-101, 103-110
  * Peridigm_Compute_Error.cpp: 89-219, 90-212, 94-208, 100-127, 114-207, 116-204, 130, 130-146, 130-148, 151-170, 171, 220-265
  * Peridigm_Compute_Radius.cpp: 80-84
* `Verif/Progress/Model.lean`:
  * Peridigm.cpp: 1261-1284, 1434-1437, 1435-1437, 1447, 1466-1467, 1467, 1591, 1591-1592, 4419-4448, 4420-4447, 4422, 4429, 4433-4434, 4433-4445
* `Verif/QuasiStatic/Model.lean`:
  * Peridigm.cpp: 2470-2999, 2470-3043, 2480-2560, 2488-2504, 2542-2543, 2576-2598, 2600-2643, 2605-2607, 2611-2620, 2616, 2655, 2655-2999, 2657-2660, 2659-2877, 2663-2877, 2684-2687, 2716-2732, 2746-2877, 2763-2822, 2767, 2770-2822, 2826-2866, 2828, 2831, 2861-2862, 2882-2883, 2889-2924, 2890-2891, 2905-2906, 2919-2924, 2926-2934, 2929-2933, 2939-2997, 2994-2996, 3024-3025, 3032-3036, 3364-3618, 4176-4317, 4192-4220, 4228, 4307, 4309-4316
* `Verif/Quick/Model.lean`:
  * Peridigm_PdQuickGridDiscretization.cpp: 58-105, 69-71, 75-104, 137-164, 165-168, 174-213, 175-191, 214-218, 222-224
  * QuickGrid.cxx: 172-241, 1918-1944
* `Verif/Record/Model.lean`:
  * Peridigm.cpp: 289-292, 289-316, 301-316, 454
  * Peridigm_ComputeManager.cpp: 115-129, 194-202
  * Peridigm_Compute_Acceleration.cpp: 59-61, 70-86
  * Peridigm_Compute_Angular_Momentum.cpp: 60-65, 77-164
  * Peridigm_Compute_Block_Data.cpp: 82-98, 121-216
  * Peridigm_Compute_Bond_Visualization.cpp: 77-83, 151-153
  * Peridigm_Compute_Contact_Force.cpp: 59-62, 72-109
  * Peridigm_Compute_Deformation_Gradient.cpp: 63-69, 83-118
  * Peridigm_Compute_Force.cpp: 59-62, 72-108
  * Peridigm_Compute_Global_Angular_Momentum.cpp: 61-66
  * Peridigm_Compute_Global_Kinetic_Energy.cpp: 53-57, 63-68
  * Peridigm_Compute_Global_Linear_Momentum.cpp: 63-68
  * Peridigm_Compute_JIntegral.cpp: 66-74
  * Peridigm_Compute_Kinetic_Energy.cpp: 59-63, 74-157
  * Peridigm_Compute_Linear_Momentum.cpp: 60-64, 75-170
  * Peridigm_Compute_Local_Angular_Momentum.cpp: 63-67
  * Peridigm_Compute_Local_Kinetic_Energy.cpp: 63-68
  * Peridigm_Compute_Local_Linear_Momentum.cpp: 63-68
  * Peridigm_Compute_Nearest_Point_Data.cpp: 70-90, 200-239
  * Peridigm_Compute_Neighborhood_Volume.cpp: 58-60, 111-113
  * Peridigm_Compute_Node_Set_Data.cpp: 99-115, 138-239
  * Peridigm_Compute_Nonlinear_Solver_Iterations.cpp: 63-64, 71-75
  * Peridigm_Compute_Number_Of_Neighbors.cpp: 58-59, 84-86
  * Peridigm_Compute_OBC_Functional.cpp: 58-59, 72-80
  * Peridigm_Compute_Radius.cpp: 59-61, 88-90
  * Peridigm_Compute_Stored_Elastic_Energy.cpp: 59-62, 72-102
  * Peridigm_Compute_Stored_Elastic_Energy_Density.cpp: 59-60, 68-90
  * Peridigm_Field.cpp: 94-159
  * Peridigm_Material.hpp: 184-190
  * Peridigm_OutputManagerContainer.hpp: 75-80
  * Peridigm_OutputManager_ExodusII.cpp: 230-231
* `Verif/Redist/Model.lean`:
  * Peridigm_DataManager.cpp: 293-370, 301-367, 333-345, 348-361, 355-360, 358-359, 373-465, 418-456, 423-440, 426-436, 486-511, 488-510, 541-573
  * Peridigm_DataManager.hpp: 205-254
  * Peridigm_State.cpp: 61, 68-78, 70-73, 75-78, 132-151, 138-144, 139-143, 208-233, 215-232, 218-231, 228-230
  * Peridigm_State.hpp: 149-153
* `Verif/Return/Model.lean`:
  * Peridigm_BondAssociatedCorrespondenceMaterial.cpp: 423-424, 444-461
  * Peridigm_DataManager.hpp: 159-175
  * Peridigm_IsotropicHardeningPlasticBondAssociatedCorrespondenceMaterial.cpp: 68-86, 70-80, 89-99, 111-135, 138-325, 241, 282
  * isotropic_hardening_correspondence.cxx: 616-667, 647-664, 664, 668-721, 700-718, 718, 1097-1232, 1210-1228, 1228, 1233-1369, 1362, 1371-1530, 1371-1691, 1414, 1416, 1463, 1487-1525, 1498-1524, 1499, 1521, 1575, 1577
* `Verif/Search/GlobalModel.lean`:
  * NeighborhoodList.cxx: 255-313
  * Peridigm_ProximitySearch.cpp: 204-299, 248-254, 275-287
* `Verif/Search/Model.lean`:
  * NeighborhoodList.cxx: 137-171, 164-166, 377-477, 382-386, 434-477, 451, 480-593, 549-593, 646-666, 697, 732-738
  * Peridigm_ZoltanSearchTree.cpp: 54-130, 214-247
  * Sortable.cxx: 225-300, 236-246, 255-296
  * Vector3D.h: 196-204
* `Verif/Sections/Model.lean`:
  * Peridigm.cpp: 1220-1256, 1228-1254, 1244-1253, 1245-1246, 1248, 1432, 1584
  * Peridigm_OutputManagerContainer.hpp: 72-76
  * Peridigm_OutputManager_ExodusII.cpp: 72-143, 84, 96-111, 114, 118, 122, 125-126, 129, 158-171, 173-201, 197-201
* `Verif/Setup/ComputeModel.lean`:
  * Peridigm.cpp: 1076-1129, 1085-1112, 1104-1109
  * Peridigm_ComputeManager.cpp: 58-130, 69-83, 85-113, 103-113, 117-128, 136-153
  * Peridigm_Compute_Block_Data.cpp: 62-66
  * Peridigm_Compute_JIntegral.cpp: 63-64
  * Peridigm_Compute_Nearest_Point_Data.cpp: 60-64
  * Peridigm_Compute_Node_Set_Data.cpp: 63-65
  * compute_includes.hpp: 1-25
* `Verif/Setup/DeficientModel.lean`:
  * Peridigm_BoundaryAndInitialConditionManager.cpp: 185-203, 270-272
  * Peridigm_InterfaceAwareDamageModel.cpp: 116-226
* `Verif/Setup/Model.lean`:
  * Peridigm.cpp: 143-148, 162-181, 209-217, 210-216, 232-258, 234-249, 250-254, 274-285, 276-280, 373-375, 387-431, 388-431, 391-396, 404-412, 414-426, 661-683, 663-670, 667-669, 741-783, 1257-1276
  * Peridigm_Block.hpp: 107-110
  * Peridigm_BoundaryAndInitialConditionManager.cpp: 58-68
  * Peridigm_MaterialFactory.cpp: 80-160, 86-131
* `Verif/Setup/TimeModel.lean`:
  * Peridigm.cpp: 348-359, 353-359, 387-451, 434-451, 446-449, 1257-1276, 1278-1285, 1288-1835, 1382-1395, 1447-1450, 1447-1536, 1452-1465, 1459-1462, 1514-1522
  * Peridigm_DamageModelFactory.cpp: 60-87, 66-77
  * Peridigm_InterfaceAwareDamageModel.cpp: 52-55, 180
  * Peridigm_ModelEvaluator.cpp: 72-87
  * Peridigm_UserDefinedTimeDependentCriticalStretchDamageModel.cpp: 52-62, 94-133
  * Peridigm_UserDefinedTimeDependentShortRangeForceContactModel.cpp: 107-145
* `Verif/ShearFactor/Model.lean`:
  * Peridigm_ElasticPlasticHardeningMaterial.cpp: 117-144, 141-142
  * Peridigm_MultiphysicsElasticMaterial.cpp: 163-194, 265-333, 296-332, 305-308, 331
  * material_utilities.cxx: 95-147, 111-143, 333-372, 375-444, 447-500, 458, 466-497, 473-476
  * material_utilities.h: 62
* `Verif/Sizes/Model.lean`:
  * Peridigm.cpp: 372-374, 423-424, 794-808
  * Peridigm_ExodusDiscretization.cpp: 76-77, 188-203, 189-195, 190, 190-194, 196-203
  * Peridigm_PdQuickGridDiscretization.cpp: 61-63, 182-184, 223-225
  * Peridigm_TextFileDiscretization.cpp: 71-72, 107-122, 108-114, 109, 109-113, 115-122
* `Verif/Storage/InterfaceFileModel.lean`:
  * Peridigm_InterfaceData.cpp: 74, 74-97, 77, 86-97, 120, 120-273, 166-172, 211-224, 220, 227-240, 236
* `Verif/Storage/InterfaceModel.lean`:
  * Peridigm_ExodusDiscretization.cpp: 592-676, 592-681, 595-596, 599, 604-607, 610-624, 611-619, 621-674, 624-632, 627-673, 634-656, 637-643, 639, 646, 657-672, 658-665
  * Peridigm_InterfaceData.cpp: 54-84, 83-84, 275-386, 294-309, 348-379
  * Peridigm_OutputManager_ExodusII.cpp: 246-248
* `Verif/Storage/LoaderModel.lean`:
  * Peridigm.cpp: 1383, 1430, 1530, 1582
  * Peridigm_DataLoader.cpp: 60-61, 63-191, 67-70, 201-225, 206-218, 208-212, 215-218, 286-330, 304, 307-316, 321-325
* `Verif/Storage/RestartModel.lean`:
  * Peridigm.cpp: 958-967, 958-1074, 969-1007, 974, 1003, 1281-1288, 1283-1285, 1316-1322, 1366-1378, 1388, 1447-1590, 4449-4528, 4449-4651, 4456, 4457, 4460-4461, 4467-4527, 4468, 4487-4521, 4530-4651, 4538, 4545, 4566-4650, 4585-4644
* `Verif/Synch/Model.lean`:
  * Peridigm.cpp: 671-674, 710, 711-716, 713-714, 717, 719-723, 724, 844-894, 1281-1288, 1290-1592, 1364-1434, 1428-1432, 1441-1589, 1580-1584, 1587-1589, 1836-1885, 1845-1850, 1853-1860, 1875-1877, 1879-1884, 1958-2468, 2090-2091, 2458-2459, 2462-2464, 2470-3043, 2648-2649, 2990-2991, 2994-2996, 3045-3279, 3134-3135, 3266-3267, 3270-3272, 3620-4018, 3709-3710, 4008-4009, 4012-4014, 4340-4401, 4347-4378, 4349-4361, 4366-4376, 4380-4398, 4385-4386
  * Peridigm_Block.cpp: 138-158, 160-195, 165-193, 178-182, 207-250, 217-221
  * Peridigm_BlockBase.cpp: 79-97
  * Peridigm_BlockBase.hpp
  * Peridigm_BondAssociatedCorrespondenceMaterial.hpp: 88-97
  * Peridigm_ElasticMaterial.cpp: 88-95, 170
  * Peridigm_HypoelasticCorrespondenceMaterial.cpp: 475-479
  * Peridigm_HypoelasticCorrespondenceMaterial.hpp: 81-99, 81-100
  * Peridigm_LinearLPSPVMaterial.cpp: 239-293
  * Peridigm_LinearLPSPVMaterial.hpp: 81-93, 89-93
  * Peridigm_Material.hpp
  * Peridigm_ModelEvaluator.cpp: 79-100, 79-124, 100
* `Verif/Synch/StartModel.lean`:
  * Peridigm.cpp: 516-520, 516-539, 522-538, 523-537, 524-530, 532-536, 810-926, 843-848, 843-871, 849-867, 849-881, 869, 869-871, 872-881, 895-920
* `Verif/Tangent/Model.lean`:
  * Peridigm.cpp: 4018-4108, 4027-4037, 4044-4082, 4048-4056, 4048-4073, 4055, 4058-4073, 4066-4067, 4068, 4075-4081, 4129-4160, 4322, 4322-4326, 4329-4337
  * Peridigm_ElasticMaterial.cpp: 295
  * Peridigm_ElasticPlasticHardeningMaterial.cpp: 193-210
  * Peridigm_ElasticPlasticMaterial.cpp: 182-199
  * Peridigm_Material.cpp: 70-333, 102-112, 128-139, 128-142, 129-332, 135, 140, 144-160, 144-315, 147, 197-198, 200-207, 226-232, 226-308, 235-273, 259-264, 259-272, 275-307, 310-315, 324-331
  * Peridigm_ModelEvaluator.cpp: 133-160
  * Peridigm_ScratchMatrix.hpp: 54-111, 71-81, 92-95
  * Peridigm_SerialMatrix.cpp: 82-107, 88, 95-105, 97-98, 103-104, 110-176, 118-127, 135-175
* `Verif/Tensor/Model.lean`:
  * correspondence.cxx: 73-119, 83-85, 92, 96-104, 121-143, 145-216, 161-165, 167-177, 167-210, 178-188, 189-199, 200-210, 213-214, 854-859, 989-991
* `Verif/Thermal/Model.lean`:
  * Peridigm.cpp: 3045-3278, 3050-3051, 3056-3064, 3117-3136, 3117-3278, 3141-3274, 3149-3233, 3166-3176, 3181-3233, 3193-3207, 3199, 3209-3224, 3211, 3217-3219, 3238-3239, 3264-3268, 3270-3272, 4176-4317, 4192-4228, 4211-4294, 4214, 4229, 4233, 4233-4241, 4234-4246, 4247, 4250, 4251-4263, 4264, 4267, 4268-4280, 4281, 4307, 4309-4316
* `Verif/Touch/InteractModel.lean`:
  * Peridigm_ContactManager.cpp: 62-150, 152-226, 155, 156-165, 166-188, 170-186, 180, 184, 190-201, 204-216
* `Verif/Touch/Model.lean`:
  * Peridigm.cpp: 321-360, 326-339, 353-359, 737-738, 1376-1377, 1376-1595, 1393, 1404-1405, 1448-1595, 1472-1473, 1515-1524, 1536
  * Peridigm_BlockBase.cpp: 119-285
  * Peridigm_BlockBase.hpp
  * Peridigm_ContactBlock.cpp: 55-85, 55-111
  * Peridigm_ContactManager.cpp: 236-254, 248-252, 329-377, 349-363, 425-444, 428-435, 429-435, 439-442, 446-459, 461-472, 486-603, 848-851, 868-887
  * Peridigm_ContactModelFactory.cpp: 56-74
  * Peridigm_ModelEvaluator.cpp: 127-130
  * Peridigm_ShortRangeForceContactModel.cpp: 53-87, 65-76, 93-95, 97-261
  * Peridigm_ShortRangeForceContactModel.hpp: 97-101
  * Peridigm_UserDefinedTimeDependentShortRangeForceContactModel.cpp: 55-102, 67-69, 108-120, 108-144, 110-112, 123-140, 146-309
  * Peridigm_UserDefinedTimeDependentShortRangeForceContactModel.hpp: 107-117

Not modelled: everything else, in particular the QuickGrid generators other than the box and the hollow
cylinder (axisymmetric wedge, solid cylinder), input parsing and XML/YAML handling, the interface output file on several processors, the quality-assurance records of output files, the
third-party solvers and partitioners, the Exodus library and the reading of radii in text meshes, the exchange of ghosted mesh data, the materials not named above
(species concentration, Lusch and others), the internals of the Sacado library (its number type is modelled by the rules of differentiation, for the elastic and elastic-plastic materials), thermal and
partial-stress branches of the kernels named above unless cited, and the factories.

## Axioms of the property theorems

Collected with `#print axioms` over all theorems named in MANIFEST.json.

* none: BC.empty_node_list_undefined, Lps.C135_accepted, Setup.C151_scheme, Synch.C230_null
* `propext`: Assembly.C13_not_idempotent, BC.node_list_refuses, Lps.C135_refused, Mesh.C125_broken, Mesh.C125_refused, Neigh.C09_pointer, Neigh.C09_unique, Synch.C202_wrong_first_record, Synch.C203_wrong_first_record, Synch.C207_witness
* `Quot.sound`: Contact.C63_single_model_partial
* `Quot.sound`, `propext`: Balance.C128_size, Balance.C128_twice_broken, Contact.C30_between, Contact.C30_valid_ids, Contact.C63_fails, Dof.disjoint_always_partial, Dof.reinitialize_changes_layout, Dof.rows_one_to_one, Exodus.kinds_have_own_files, Exodus.listed_variables_are_requested_partial, Exodus.sections_have_own_files_partial, Exodus.value_of_request_is_ignored, Mesh.C125_none, Neigh.C09_no_slack, Neigh.C09_visits, Redist.C07_copy_mixes_fields, Redist.C08_null_state_crashes, Setup.C151_asked, Setup.C151_explicit, Setup.C151_full_partial, Synch.C201_others, Synch.C203_next_solver, Synch.C203_record_partial, Synch.C229_others
* `Classical.choice`, `Quot.sound`, `propext`: Assembly.C12_fresh, Assembly.C12_order, Assembly.C12_total, Assembly.C13_again_multiplies, Assembly.C13_every_copy_partial, Assoc.C138_exact, Assoc.C138_exact_rate, Assoc.C138_influence, Assoc.C138_initial_damage, Assoc.C138_reported, Assoc.C138_silent, Assoc.C138_singular, Assoc.C138_stale, Assoc.C138_unread, Assoc.C138_weighted_volume, Assoc.C139_broken, Assoc.C139_defined, Assoc.C139_force, Assoc.C140_elastic_symmetric, Assoc.C140_moment, Assoc.C140_power, Assoc.C141_affine, Assoc.C141_follows, Assoc.C141_paired, Assoc.C142_carried, Assoc.C142_rigid, Assoc.C142_steady, Assoc.C142_still, Assoc.C142_unloaded, Assoc.C208_beginning, Assoc.C208_exceeds_partial, Assoc.C208_turning, Assoc.C208_written_partial, Assoc.C209_same, Assoc.C242_bound, Assoc.C242_defined, Assoc.C242_fluid, Assoc.C242_step, Assoc.C243_broken, Assoc.C243_moment, Assoc.C243_rigid, Assoc.C243_symmetric, BC.body_force_last_wins_partial, BC.body_forces_do_not_add, BC.constrained_increments_vanish, BC.diagonalEntry_ne_zero, BC.duplicate_node_set_refused, BC.flux_ignored, BC.initial_conditions_exact, BC.insert_zeros_exact, BC.insert_zeros_idempotent_and_order_independent, BC.insert_zeros_missing_set, BC.node_list_exact_partial, BC.node_sets_localised, BC.off_processor_columns_survive, BC.prescribed_temperature_exact, BC.reactions_exact, BC.repeated_node_overruns, BC.tangent_columns_single_processor, BC.tangent_decouples_partial, BC.tangent_defined, BC.thermal_flux_sets_zero, Balance.C128_exact, Balance.C128_permutation, Body.C38_body, Body.C66_force, Body.C66_moment, BondVolume.C238_bounds, BondVolume.C238_mesh, BondVolume.C238_monotone, BondVolume.C238_moves, BondVolume.C238_none, BondVolume.C238_symmetric, BondVolume.C238_value, BondVolume.C238_whole, BondVolume.C239_bounds, BondVolume.C239_cell_volume, BondVolume.C239_center, BondVolume.C239_mesh_partial, BondVolume.C239_monotone, BondVolume.C239_none_partial, BondVolume.C239_turns_partial, BondVolume.C239_value_partial, BondVolume.C239_whole_partial, BondVolume.C240_order, BondVolume.C240_point, BondVolume.C240_short, BondVolume.C241_agrees, BondVolume.C241_default, BondVolume.C241_defined, BondVolume.C241_dilatation, BondVolume.C241_no_shear_partial, BondVolume.C241_norm_partial, Combine.C232_fields, Combine.C232_order, Combine.C232_starts, Combine.C232_terminates, Conserve.C255_angular, Conserve.C255_body, Conserve.C256_conserved, Conserve.C256_stable, Conserve.C257_stable_partial, Conserve.C257_unstable, Conserve.C258_balance, Conserve.C258_conserved_partial, Conserve.C258_first_step_loses, Conserve.C258_stable, Conserve.C258_step, Conserve.C259_elastic, Conserve.C259_frame, Conserve.C260_close, Conserve.C260_determined, Conserve.C260_unique, Conserve.C261_minimum, Conserve.C261_only, Conserve.C262_superposition, Conserve.C263_reach, Conserve.C263_speed, Conserve.C264_uniform, Conserve.C265_determined, Conserve.C265_superposition, Conserve.C266_reciprocal, Conserve.C267_superposition, Conserve.C267_unique, Conserve.C268_center, Conserve.C268_momentum, Conserve.C269_elastic, Conserve.C269_linear, Conserve.C269_supports, Contact.C29_balanced, Contact.C29_central, Contact.C29_defined, Contact.C29_friction, Contact.C29_invalid_id, Contact.C29_law, Contact.C29_moment, Contact.C29_no_force, Contact.C29_range, Contact.C29_repulsive, Contact.C30_exactly_unbonded, Contact.C30_run, Contact.C31_fails_empty, Contact.C31_fails_general, Contact.C31_fails_last, Contact.C31_fails_swapped, Contact.C31_one_per_pair_partial, Contact.C31_ordered_partial, Convert.C197_defined, Convert.C197_file, Convert.C197_points, Convert.C197_refused, Convert.C197_scale_fails, Convert.C197_scale_partial, Convert.C197_sound, Convert.C197_unnumbered, Convert.C198_fails, Convert.C198_members, Convert.C198_sets_partial, Convert.C198_undefined, Convert.C199_clash, Convert.C199_layers, Convert.C200_file, Correspondence.C210_cycle, Correspondence.C210_not_elastic, Correspondence.C210_strain_partial, Correspondence.C210_stress_partial, Correspondence.C211_begins, Correspondence.C211_displaced, Correspondence.C211_homogeneous, Correspondence.C211_no_stress, Correspondence.C212_not_free, Correspondence.C212_velocities_partial, Correspondence.C74_affine, Correspondence.C74_few_neighbors, Correspondence.C74_singular, Correspondence.C75_affine, Correspondence.C76_linear_momentum, Correspondence.C77_angular_momentum, Correspondence.C78_partial_stress, Correspondence.C79_growth_partial, Correspondence.C79_not_orthogonal, Correspondence.C79_rigid_partial, Correspondence.C80_elastic_rigid, Correspondence.C80_rate, Correspondence.C80_rigid, Correspondence.C81_free_expansion, Correspondence.C81_hooke, Correspondence.C81_symmetric, Correspondence.C82_history, Correspondence.C82_on_surface, Correspondence.C82_step, Correspondence.C83_bounds_partial, Correspondence.C83_not_exact, Correspondence.C84_flaw_partial, Correspondence.C84_not_consistent, Correspondence.C84_perfect_partial, Correspondence.C84_step_partial, Correspondence.C84_virgin_partial, Correspondence.C86_rigid, Correspondence.C86_run, Correspondence.C86_step, Damage.C131_break, Damage.C131_copies, Damage.C131_mixed, Damage.C131_zero, Damage.C25_broken_iff, Damage.C25_defined, Damage.C25_irreversible, Damage.C25_last_evaluation, Damage.C26_fraction, Damage.C26_monotone, Damage.C27_bond_heals, Damage.C27_every_other_step_partial, Damage.C28_johnsonCook_bond, Damage.C28_johnsonCook_defined, Damage.C28_johnsonCook_monotone, Damage.C28_johnsonCook_sum, Damage.C28_vonMises_breaks, Damage.C28_vonMises_defined, Damage.C28_vonMises_maximum, Damage.C28_vonMises_monotone, Damage.C61_defined, Damage.C61_initial_damage, Damage.C62_bond_heals, Damage.C62_evaluation_monotone_partial, Data.C03_two_step_shift, Data.C03_write_exact, Data.C04_stateless, Data.C05_shared, Data.C05_shift_once, Data.C05_update_total, Data.C06_getData_can_crash, Data.C06_hasData_agrees_partial, Data.C06_hasData_can_crash, Data.C06_own_storage, Data.C06_requested_available, Deck.C249_comma, Deck.C249_condition_name, Deck.C249_file, Deck.C249_file_names, Deck.C249_file_unusable, Deck.C249_file_zero, Deck.C249_list_partial, Deck.C249_list_refused, Deck.C249_list_zero, Deck.C249_no_coordinate, Deck.C249_section, Deck.C249_sets, Deck.C249_types, Deck.C249_value_lost, Deck.C249_value_partial, Deck.C250_evaluate_partial, Deck.C250_order, Deck.C250_stale, Diffusion.C103_broken_blocks, Diffusion.C103_broken_one_sided, Diffusion.C103_broken_weights, Diffusion.C103_partial, Diffusion.C104_cold, Diffusion.C104_defined, Diffusion.C104_hot, Diffusion.C104_scale, Diffusion.C104_uniform, Diffusion.C104_weights, Diffusion.C105_bounds, Diffusion.C105_needs_anchor, Diffusion.C105_unique, Diffusion.C106_defined, Diffusion.C106_flows, Diffusion.C106_high, Diffusion.C106_mass, Diffusion.C106_rest, Diffusion.C106_scale, Diffusion.C107_broken, Diffusion.C107_opposite, Diffusion.C107_partial, Diffusion.C108_defined, Diffusion.C108_elastic, Diffusion.C108_flow, Diffusion.C108_momentum, Diffusion.C108_virial, Diffusion.C109_balance, Diffusion.C109_components, Diffusion.C109_defined, Diffusion.C109_dissipation, Dof.layout_partial, Energy.C97_broken, Energy.C97_defined, Energy.C97_partial, Energy.C98_frame, Energy.C98_nonneg, Energy.C98_zero_iff, Exodus.clash_of_names_fails, Exodus.different_sections_share_a_file, Exodus.element_variable_reads_back, Exodus.false_variable_is_written, Exodus.foreign_node_terminates, Exodus.global_variable_reads_back, Exodus.long_label_overruns, Exodus.mesh_reads_back, Exodus.nodal_field_of_one_block_fails, Exodus.nodal_variable_reads_back, Exodus.node_set_reads_back, Exodus.processors_have_own_files, Exodus.request_is_written_partial, Exodus.truth_table_tells, Exodus.written_names_fit, Explicit.C32_follows, Explicit.C32_run, Explicit.C36_covers, Explicit.C36_defined, Explicit.C36_step_times, Explicit.C37_positions, Explicit.C38_momentum, Explicit.C39_reversible, Explicit.explicit_defined, Fad.C213_block_diagonal, Fad.C213_defined, Fad.C213_exact_derivative, Fad.C213_terminates, Fad.C214_defined, Fad.C214_finite_differences, Fad.C215_symmetric, Fad.C216_rotations, Fad.C216_translations, Fad.C217_compressed, Fad.C217_stable, Fad.C218_same_force, Fad.C219_below_yield_partial, Fad.C219_influence_ignored, Fad.C220_consistent_tangent, Fad.C220_defined, Fad.C220_finite_differences, Fad.C220_finite_differences_defined, Fad.C221_block_diagonal_terminates, Fad.C222_elastic_tangent, Fad.C222_symmetric, Fad.C223_broken_not_symmetric, Fad.C223_symmetric_partial, Fad.C225_rotations, Fad.C225_translations, Field.C01_field_ids, Field.C02_accepted_iff, Field.C02_labels, Filter.cuts_defined, Filter.cuts_symmetric, Filter.disk_removes_iff, Filter.filters_mark_iff, Filter.plane_removes_iff, Filter.quad_removes_iff, Filter.triangle_removes_iff, Geometry.C118_additive, Geometry.C118_affine, Geometry.C118_brick, Geometry.C118_flat, Geometry.C118_hex_centroid, Geometry.C118_hex_defined, Geometry.C118_hex_hull, Geometry.C118_hex_refused, Geometry.C118_hex_same, Geometry.C118_hex_volume, Geometry.C118_mirror, Geometry.C118_tet, Geometry.C119_crossing, Geometry.C119_degenerate, Geometry.C119_far, Geometry.C119_inside, Geometry.C119_intersects_partial, Geometry.C119_outside, Geometry.C120_hex_broken, Geometry.C120_hex_defined, Geometry.C120_hex_far, Geometry.C120_hex_inside, Geometry.C120_hex_intersects_partial, Geometry.C120_hex_outside_partial, Geometry.C120_hex_surface, Geometry.C120_tet_broken, Geometry.C120_tet_defined, Geometry.C120_tet_faces, Geometry.C120_tet_inside, Geometry.C120_tet_intersects, Geometry.C120_tet_outside_partial, Grid.C113_cells, Grid.C113_defined, Grid.C113_delivered, Grid.C113_inside, Grid.C113_too_many, Grid.C113_volume, Grid.C114_default_broken, Grid.C114_default_partial, Grid.C114_spherical, Grid.C114_symmetric, Grid.C115_box, Grid.C115_cylinder, Grid.C115_reads, Grid.C115_ring_reads, Grid.C116_cells_partial, Grid.C116_center_broken, Grid.C116_center_ignored, Grid.C116_defined, Grid.C116_inside_partial, Grid.C116_volume, Grid.C117_missed, Grid.C117_neighbors_partial, Grid.C117_twice, Grid.C236_cells_partial, Grid.C236_defined, Grid.C236_lost, Grid.C236_missing, Grid.C236_one_processor, Grid.C237_inside, Grid.C237_volume, Hardening.C129_defined, Hardening.C129_elastic, Hardening.C129_flow, Hardening.C129_history, Hardening.C129_yield, Hardening.C130_force, Hardening.C130_frame, Hardening.C130_free_point, Hardening.C130_moment, Hypo.C162_affine, Hypo.C162_bond, Hypo.C162_exact, Hypo.C162_flying, Hypo.C163_broken, Hypo.C163_defined, Hypo.C163_first_flight_fails, Hypo.C163_flown, Hypo.C163_force, Hypo.C163_isolated_fails, Hypo.C163_volumes, Hypo.C164_cut, Hypo.C164_default_fails, Hypo.C165_moment, Hypo.C165_power, Hypo.C165_symmetric, Hypo.C166_carried, Hypo.C166_growth_fails, Hypo.C166_rigid, Hypo.C167_bond_fails, Hypo.C167_bond_partial, Hypo.C167_fluid_fails, Hypo.C167_node_partial, Hypo.C167_perfect_bound, Hypo.C167_perfect_step, Hypo.C167_triaxiality_fails, Hypo.C168_expansion_fails, Hypo.C168_gap, Hypo.C168_rotation_fails, Hypo.C168_strain, Implicit.C43_balance, Implicit.C43_constrained_drifts_partial, Implicit.C43_converged_or_exhausted, Implicit.C43_newmark, Implicit.C43_prescribed_not_followed, Implicit.C43_times, KdTree.C169_negative, KdTree.C169_within, KdTree.C170_cube, KdTree.C171_nearest, KdTree.C171_refused, KdTree.C172_adjacent_fails, KdTree.C172_coincident_fails, KdTree.C172_defined, KdTree.C172_double_fails, KdTree.C172_iff, KdTree.C172_nodes, KdTree.C173_coincident_fails, KdTree.C173_same, LineSearch.C44_best, LineSearch.C44_defined, LineSearch.C44_multiphysics_blind_partial, LineSearch.C44_multiphysics_increment, LineSearch.C44_multiphysics_not_best, Lps.C135_broken, Lps.C135_defined, Lps.C135_force, Lps.C135_kernel, Lps.C135_moment, Lps.C135_partials, Lps.C135_quadrature, Lps.C135_turned, Lps.C136_linear, Lps.C136_reciprocal, Lps.C136_resists, Lps.C136_rigid, Lps.C136_turned, Lps.C137_defined, Lps.C137_tangent, Mech.C17_bondBased, Mech.C17_elastic, Mech.C17_plastic, Mech.C17_visco, Mech.C18_bondBased, Mech.C18_elastic, Mech.C18_plastic, Mech.C18_visco, Mech.C19_bondBased, Mech.C19_elastic, Mech.C19_plastic, Mech.C19_visco, Mech.C20_rigid, Mech.C21_free_point, Mech.C21_free_point_plastic, Mech.C21_free_point_visco, Mech.C21_no_load, Mech.C224_isochoric, Mech.C224_virgin, Mech.C22_order, Mech.C22_positive, Mech.C22_stored, Mech.C23_elastic, Mech.C23_history, Mech.C23_yield, Mech.C24_bounded, Mech.bondBased_defined, Mech.elastic_defined, Mech.plastic_defined, Mech.visco_defined, Mesh.C122_broken, Mesh.C122_duplicate, Mesh.C122_ids, Mesh.C122_points, Mesh.C122_unknown, Mesh.C123_duplicate, Mesh.C123_sets, Mesh.C124_broken, Mesh.C124_dimension, Mesh.C124_exact_partial, Mesh.C124_geometric_partial, Mesh.C124_nodes, Mesh.C124_off, Mesh.C124_only_hexahedra, Mesh.C125_all_partial, Mesh.C125_text_partial, Mesh.C125_undefined, Mesh.C126_block_unique, Mesh.C126_broken, Mesh.C126_empty, Mesh.C126_points, Mesh.C126_refused, Mesh.C126_sound, Mesh.C127_blocks_partial, Mesh.C127_broken, Mesh.C127_names, Mesh.C246_ghosts, Mesh.C246_lists, Mesh.C246_missing, Mesh.C246_own, Needleman.C156_step, Needleman.C156_surface, Needleman.C157_increment_partial, Needleman.C157_runaway, Needleman.C157_start, Needleman.C158_bounds_partial, Needleman.C158_not_consistent, Needleman.C159_drop, Needleman.C159_elastic_partial, Needleman.C159_not_continuous, Needleman.C160_hardening, Needleman.C160_isotropic, Needleman.C160_perfect, Needleman.C161_continues, Needleman.C161_fields, Needleman.C161_flaw, Needleman.C161_switch, Needleman.C161_unchecked, Neigh.C10_block_bonds, Neigh.C10_block_neighbors, Neigh.C11_bond_storage, Neigh.C11_maps, Neigh.C11_partition, Neigh.C14_same_neighbors, Newton.C226_definite, Newton.C226_entries, Newton.C226_form, Newton.C226_graph, Newton.C226_lift, Newton.C226_processors, Newton.C226_system, Newton.C226_unstable_fails, Newton.C227_matrices, Newton.C227_reason, Newton.C227_second_attempt, Newton.C227_second_attempt_fails, Nox.C228_fails, Nox.C228_loop_partial, Nox.C228_reports_zero, Nox.C45_age_not_respected, Nox.C45_every_call_partial, Nox.C45_never_rebuilt_partial, Nox.C46_mechanics, Nox.C46_multiphysics_accumulates_partial, Nox.C46_multiphysics_history_dependent, Nox.C71_inverse_partial, Nox.C71_inverted_twice, Nox.C72_mechanics, Nox.C72_multiphysics_body_force_ignored, Nox.C72_multiphysics_partial, Nox.C73_follows, Nox.C73_velocity_and_position, Outputs.C100_force, Outputs.C100_force_refused, Outputs.C100_neighborhoods, Outputs.C100_partial_volumes, Outputs.C101_default, Outputs.C101_early, Outputs.C101_none, Outputs.C101_partial, Outputs.C101_steps, Outputs.C102_partial, Outputs.C102_shift, Outputs.C102_steps, Outputs.C52_block_distribution, Outputs.C52_block_maximum_partial, Outputs.C52_block_maximum_wrong, Outputs.C52_block_minimum, Outputs.C52_block_sum, Outputs.C52_set_distribution, Outputs.C52_set_maximum_partial, Outputs.C52_set_maximum_wrong, Outputs.C52_set_minimum, Outputs.C52_set_sum, Outputs.C52_unknown_block, Outputs.C53_distribution, Outputs.C53_nearest, Outputs.C53_unique, Outputs.C53_value, Outputs.C54_angular_partial, Outputs.C54_blocks_wrong, Outputs.C54_linear_partial, Outputs.C54_lower_bound_partial, Outputs.C55_kinetic_nonneg, Outputs.C55_kinetic_sum, Outputs.C55_strain_expansion_partial, Outputs.C55_strain_negative, Outputs.C55_strain_rigid, Outputs.C55_strain_sum, Outputs.C56_critical_step, Outputs.C56_distribution, Outputs.C56_explicit_step, Outputs.C56_fixed_step, Outputs.C92_spurious_warning, Outputs.C92_tied_if_warning_partial, Outputs.C92_warning_if_tied, Outputs.C93_angular_reversed, Outputs.C93_linear, Outputs.C99_difference, Outputs.C99_partial, Pals.C132_defined, Pals.C132_dilatation, Pals.C132_energy, Pals.C132_isolated, Pals.C132_none, Pals.C133_force, Pals.C133_frame, Pals.C133_gradient, Pals.C133_moment, Pals.C133_rigid, Pals.C134_broken, Pals.C134_ignored, Params.C49_consistent_partial, Params.C49_plane_inconsistent, Params.C49_plane_values, Params.C49_refused, Params.C50_block, Params.C50_default, Params.C50_neither, Params.C50_refused, Params.C50_second_run, Params.C51_bounded, Params.C51_cached, Params.C51_parabolic, Params.C51_selected_partial, Params.C57_analysis, Params.C57_cubit_partial, Params.C57_fails, Params.C57_grain_partial, Params.C57_throws, Params.C85_fails, Params.C85_one_to_one_partial, Params.C85_parameters, Porous.C233_defined, Porous.C233_exact_derivative, Porous.C233_no_differences, Porous.C233_terminates, Porous.C234_no_block_diagonal, Porous.C235_balance, Porous.C235_dissipates, Porous.C235_flow_operator, Porous.C235_signs, Porous.C235_symmetric, Porous.C235_translations, Post.C179_code, Post.C179_fails, Post.C179_partial, Post.C179_skipped, Post.C179_zero, Post.C180_not_box, Post.C180_not_cube, Post.C180_other, Post.C180_partial, Post.C180_scaled, Post.C180_thin, Post.C181_defined, Post.C181_refused, Post.C181_sum, Post.C182_file, Post.C183_negative, Post.C183_radius, Progress.C244_bar, Progress.C244_calls, Progress.C244_runs, Progress.C244_shows, QuasiStatic.C40_increasing, QuasiStatic.C40_overshoot, QuasiStatic.C40_reaches_final_time_partial, QuasiStatic.C40_reduced_steps_cover, QuasiStatic.C40_uniform, QuasiStatic.C41_attempts_counted, QuasiStatic.C41_bound, QuasiStatic.C41_gives_up, QuasiStatic.C41_inner_loop_ends, QuasiStatic.C41_terminates, QuasiStatic.C41_terminates_fixed, QuasiStatic.C42_body_force, QuasiStatic.C42_equilibrium, QuasiStatic.C42_handover, QuasiStatic.C42_only_accepted, QuasiStatic.C42_rejected_changes_nothing, QuasiStatic.C70_follows, QuasiStatic.C70_recovers, QuasiStatic.C70_velocity, QuasiStatic.no_load_steps, QuasiStatic.uniform_schedule, Quick.C247_balanced, Quick.C247_box, Quick.C247_cylinder, Quick.C247_refused, Quick.C247_too_many_broken, Record.C248_analysis, Record.C248_consistent_partial, Record.C248_frame, Record.C248_hypoelastic, Record.C248_shared, Record.C248_stale, Record.C248_twice_partial, Record.C248_uncomputed, Record.C248_unregistered, Redist.C07_copy_by_gid, Redist.C07_copy_manager, Redist.C08_bonds_keep_data, Redist.C08_points_keep_data, Return.C143_elastic, Return.C143_exact, Return.C143_slope, Return.C143_surface, Return.C143_unique, Return.C144_flow, Return.C144_symmetric, Return.C145_defined, Return.C145_ends, Return.C145_rate, Return.C145_rules, Return.C145_slope, Return.C145_unchecked, Return.C146_isotropic, Return.C147_admissible, Return.C147_continues, Return.C147_monotone, Return.C147_symmetric, Return.C148_stale, Return.C148_stale_first, Return.C148_triaxiality_partial, Search.C121_delivers, Search.C121_exact_partial, Search.C121_mutual_partial, Search.C121_refused, Search.C121_sound, Search.empty_processor_ub, Search.search_complete_partial, Search.search_defined, Search.search_exact_partial, Search.search_independent_partial, Search.search_sound, Search.search_symmetric_partial, Search.search_ties_partial, Search.tie_misses_neighbor, Search.varying_radii_miss_neighbor, Sections.C251_accepted, Sections.C251_ascii, Sections.C251_bond_family, Sections.C251_managers, Sections.C251_other_entries, Sections.C251_pair, Sections.C251_records, Sections.C251_refused, Sections.C251_same_file, Sections.C251_silent, Setup.C149_horizon, Setup.C149_parameters, Setup.C149_refused, Setup.C149_screening_fails, Setup.C149_screening_other, Setup.C149_screening_partial, Setup.C150_density, Setup.C151_fails, Setup.C151_solvers, Setup.C151_some, Setup.C152_fails, Setup.C152_implicit_fixed, Setup.C152_initial_fails, Setup.C152_initial_partial, Setup.C152_steps_partial, Setup.C152_unassigned, Setup.C153_explicit_fails, Setup.C153_explicit_step, Setup.C153_fails, Setup.C153_implicit_partial, Setup.C153_usable_partial, Setup.C154_fails, Setup.C154_partial, Setup.C154_renumbered, Setup.C154_without_set, Setup.C155_any_fails, Setup.C155_any_partial, Setup.C155_fields, Setup.C155_objects, Setup.C155_once_fails, Setup.C155_once_partial, Setup.C155_refused, Setup.C155_unknown, ShearFactor.C174_energy, ShearFactor.C174_uncorrected, ShearFactor.C175_fails, ShearFactor.C175_squared_partial, ShearFactor.C176_axes, ShearFactor.C176_iff, ShearFactor.C176_line_fails, ShearFactor.C177_rotation_fails, ShearFactor.C177_same, ShearFactor.C178_broken, ShearFactor.C178_defined, ShearFactor.C178_partial, Sizes.C231_box, Sizes.C231_contact, Sizes.C231_cylinder_fails, Sizes.C231_mesh, Sizes.C231_probe, Sizes.C231_processors, Storage.C245_absent, Storage.C245_ids_mixed, Storage.C245_ids_partial, Storage.C245_refused, Storage.C245_shells, Storage.C245_values, Storage.C58_minus_one, Storage.C58_partial, Storage.C58_repeat_accepted, Storage.C59_late, Storage.C59_partial, Storage.C60_accepted_iff, Storage.C60_names, Storage.C60_partial, Storage.C60_refused, Storage.C94_hex_partial, Storage.C94_nodes, Storage.C94_one_sided, Storage.C94_tet_partial, Storage.C95_overwritten, Storage.C95_partial, Storage.C96_lost, Storage.C96_partial, Synch.C201_every_record, Synch.C201_places, Synch.C201_vectors, Synch.C202_next_solver, Synch.C202_sum_partial, Synch.C204_force, Synch.C204_refused, Synch.C204_returns, Synch.C204_sees, Synch.C205_check, Synch.C205_collected, Synch.C205_elastic_beside, Synch.C205_missing_field, Synch.C205_never_fails, Synch.C206_flag, Synch.C206_jacobian, Synch.C206_multiplied, Synch.C207_grows, Synch.C207_only_lps, Synch.C207_recurrence, Synch.C207_seen_partial, Synch.C229_blocks, Synch.C230_start, Synch.C230_storage, Tangent.C48_sparsity, Tangent.C87_assembly_defined_partial, Tangent.C87_isolated_terminates, Tangent.C87_thermal_defined_partial, Tangent.C87_thermal_isolated_terminates, Tangent.C88_block_diagonal, Tangent.C88_central_difference, Tangent.C88_thermal, Tangent.C89_newton_matrix_partial, Tangent.C89_not_the_derivative, Tangent.C90_block_diagonal_defined_partial, Tangent.C90_elastic_plastic_terminates, Tangent.C91_coupled_undefined, Thermal.C110_balance, Thermal.C110_defined, Thermal.C110_initial, Thermal.C110_initial_prescribed, Thermal.C110_prescribed, Thermal.C110_time_zero, Thermal.C110_times, Thermal.C110_tolerance, Thermal.C110_unmoved, Thermal.C111_broken, Thermal.C111_partial, Thermal.C111_reactions, Thermal.C112_attempt, Thermal.C112_bounds, Thermal.C112_completes, Thermal.C112_steady, Touch.C193_balanced, Touch.C193_defined, Touch.C193_exchange, Touch.C193_far, Touch.C193_independent, Touch.C193_run, Touch.C193_twice, Touch.C194_error, Touch.C194_evaluate_partial, Touch.C194_initial_time_false, Touch.C194_run_partial, Touch.C194_switch_false, Touch.C195_defined, Touch.C195_errors, Touch.C195_named_false, Touch.C195_short_range_partial, Touch.C195_time_dependent_partial, Touch.C196_empty, Touch.C196_final_false, Touch.C196_ignored, Touch.C196_list_partial, Touch.C196_twice_false, Touch.C196_uninvolved_false, Visco.C252_exact, Visco.C252_split, Visco.C253_relaxes, Visco.C253_steps, Visco.C254_elastic_partial, Visco.C254_from_rest, Visco.C254_influence_ignored, Visco.C254_not_elastic, Visco.C254_relaxed

## Disagreements between the expected property and the code

* **C06.** `DataManager::hasData` and `getData` dereference the state object of the requested step
  without checking that it exists, and `State::getData` indexes its columns through a vector that may
  be too short. The `_partial` theorem assumes that the state object exists.
* **C07.** `DataManager::copyLocallyOwnedDataFromDataManager` compares only the number of columns of
  two managers; managers with different fields of the same shape exchange data of unrelated fields.
* **C08.** Rebalancing a manager one of whose states is null dereferences it.
* **C13.** `DataManagerSynchronizer::synchronize` sums all copies, so that repeating it multiplies the
  values by the number of copies.
* **C15.** A point is sent to the processors that its *own* search radius reaches, so a point with a small
  radius is not found by a point with a large radius on another processor. The upper side of the frame set
  uses a strict comparison (`upper_bound(max-horizon)`), so points at distance exactly equal to the radius
  are missed if two processors own points on one cutting plane. A processor without points reads
  the first entry of an empty array.
* **C27.** `UserDefinedTimeDependentCriticalStretchDamageModel::computeDamage` means to copy the damage of
  step N to step NP1 but assigns pointers, so no value is copied. After the exchange of the steps NP1
  holds the values of the step before the last, and a bond broken in one step is whole after the next.
* **C62.** `InterfaceAwareDamageModel::computeDamage` never copies the bond damage from N to NP1 either.
  Moreover a point with at most two bonds is rank deficient from the start and loses its bonds in the
  first evaluation.
* **C30.** Holds with bonds as given in the input: a bond that has broken still excludes contact between its end
  points (a comment in `contactSearch` says so). Before the first rebalance the contact list is a copy of the bonded
  list; `Peridigm` calls `rebalance(0)` before the first evaluation.
* **C31.** `createContactInteractionsList` orders the two blocks only for general contact, so the definitions (1,2)
  and (2,1) both remain. Duplicates are recognised in a set ordered by blocks and model name, so the greatest
  name is kept and not the last definition; an individual definition does not replace general contact. With no
  definition at all an iterator of an empty set is incremented.
* **C63.** The list of interactions is never used when forces are evaluated, and `ContactManager::initialize` gives
  every block the first model of the input.
* **C33.** Body forces are written by assignment, so conditions that act on the same degree of freedom do not add: the
  last one in the list is the external force density.
* **C35.** `applyKinematicBC_InsertZerosAndSetDiagonal` clears the columns of those constrained nodes that the processor's
  culled node set lists, so entries in rows of one processor and columns of a constrained unknown owned by another
  survive. A node set that lists nodes repeatedly can overrun the array of column indices.
* **C47.** `DegreesOfFreedomManager::initialize` counts on top of the numbers of an earlier call.
* **C64.** `ss >> nodeID` is tested only after it is used: trailing white space repeats the last node and an empty list reads
  an uninitialised variable.
* **C69.** `NeumannBC` sets its nodal values to zero on construction and never evaluates its function; `apply` writes that zero
  to the temperature.
* **C40.** With "Reduce all remaining load steps after a failure" the list of load steps is rebuilt as multiples of the last
  length up to the first one that reaches the final time, so the last load step may end beyond it. With the times 0, 1, 1.75
  and one failure in the first load step the run ends at 2. In floating point the test `timeSteps[step+i]<timeFinal` may add one more
  step even for equal steps (not modelled). The list given as "Time Steps" is not checked for order; a number
  of load steps that is not positive gives no load step and no message.
* **C42.** After giving up, `executeQuasiStatic` returns normally: nothing tells the caller that the final time was not reached.
* **C43.** `executeImplicit` applies boundary conditions once, before the first step, with the old and the new time equal to the
  initial time, so prescribed displacement increments are never applied; a constrained node keeps its initial velocity.
  Body forces in a step are those of its beginning. A step whose residual stays above the tolerance after
  `Maximum Solver Iterations` + 1 iterations is accepted without a message, and so is the result of a linear solve
  that did not converge.
* **C44.** In multiphysics analyses the first loop of `quasiStaticsLineSearch` adds `epsilon*lhs` instead of `alpha*lhs` (lines 3471
  and 3475), so that all candidates are judged by the same residual and the first one is returned if that residual is two percent below the
  unperturbed one. A residual above 1.02e50 makes the search return 1 if no candidate is below 1e50.
* **C45.** `agePeridigmPreconditioner` is only incremented in a call that rebuilds the preconditioner, so it stays at one and the
  maximum age (default 200) is never reached within a load step.
* **C46.** `evaluateNOX` clears `unknownsForce` but not `force` and `fluidFlow` in the multiphysics branch (1744-1758), which
  the contributions of the blocks are then added to.
* **C71.** `computePreconditioner` inverts the tangent in place; if `evaluateNOX` does not recompute the tangent because of "Update
  Jacobian", the next call inverts the inverse.
* **C72.** In the multiphysics branch of `evaluateNOX` the external force is not added to the residual (1799-1803).
* **C79.** In `computeUnrotatedRateOfDeformationAndRotationTensor` the factor `scaleFactor2 = -(1.0 - cos(dt*Omega)) / OmegaSq`
  multiplies the square of the skew tensor; in the exponential of a skew tensor that factor is positive. After a step the
  rotation tensor is therefore not orthogonal: its Gram matrix is the identity minus 4(1-cos)/|w|^2 times the
  square of the skew tensor. The same sign is used in the other copies of this routine (bond level, node level). The return code of inverting trace(V)I-V
  is not tested.
* **C83.** `updateElasticPerfectlyPlasticCauchyStress` divides the returned deviatoric stress by the magnitude of the trial stress
  when it forms the flow direction and averages it with the direction of the previous step, which is zero for an unstressed point.
* **C84.** `updateElasticIsotropicHardeningPlasticCauchyStress` returns to a yield stress computed from a predicted increment of plastic strain
  (whose formula leaves out the hardening by earlier plastic strain), then records another, smaller increment.
* **C49.** `calculateBulkModulus` uses the plane strain and plane stress formulas only if Young's modulus and Poisson's ratio are given;
  with any other pair describing the same material it returns the three-dimensional bulk modulus.
* **C50.** `HorizonManager` is a singleton whose table is never cleared; a second run in one process sees the entries of the first.
  A block called "DEFAULT" is the default here but not in `initializeBlocks`.
* **C51.** `scalarInfluenceFunction` keeps the function pointer of its first call in a static variable. A user formula that fails to
  evaluate gives 0 without a message.
* **C57.** `blockNameToBlockId` uses `find_first_of("GRAIN")`, which searches for any of these letters: "Region_1" becomes 0
  and "N_1" stops the run with `std::out_of_range`.
* **C85.** `initializeBlocks` compares only the number of blocks with that of the mesh.
* **C86.** The return code of inverting trace(V)I-V is ignored. Not a disagreement for stretches with positive quadratic form.
* **C89.** The tangent contains the factor volume (Peridigm_Material.cpp:310-315), the residual of implicit dynamics does not
  (Peridigm.cpp:3846, 3989), and the density on the diagonal does not either: the Newton matrix is not the derivative of the residual.
* **C87, C213.** Both ways of computing the tangent build, for each point, a map whose only element has one entry for each
  neighbor (Peridigm_Material.cpp:147, Peridigm_ElasticMaterial.cpp:295).  `Epetra_BlockMap` throws if an element is to have
  no entries, so a single point without neighbors ends every implicit analysis, though forces and explicit analyses are
  defined.  Elsewhere such points are treated with care (Peridigm_Discretization.cpp:259, PdGridData rebalancing).
* **C90.** `ElasticPlasticMaterial::computeJacobian` and the hardening variant drop the argument `jacobianType`.
* **C91.** `computeFiniteDifferenceJacobian` addresses coordinates, velocities and forces with stride `numDof` although they have three entries
  for each point; with four unknowns for each point this is out of bounds.
* **C52.** The search for a maximum begins at `DBL_MIN` (Peridigm_Compute_Block_Data.cpp:135, Peridigm_Compute_Node_Set_Data.cpp:152), which is
  positive; for data without positive values the reported maximum is `DBL_MIN`.
* **C54.** The global momenta add the magnitudes of the momenta of the blocks (Peridigm_Compute_Linear_Momentum.cpp:148,
  Peridigm_Compute_Angular_Momentum.cpp:155) instead of taking the magnitude of their sum.
* **C55.** The deviatoric extension is not squared (Peridigm_Compute_Energy.cpp:185); the strain energy reported can be negative.
* **C92.** `foundTies` is not reset on processors that do not have the nearest point (Peridigm_Compute_Nearest_Point_Data.cpp:141-150).
* **C93.** The angular momentum is velocity cross position (Peridigm_Compute_Angular_Momentum.cpp:134-141).
* **C58.** `DataLoader::loadData` remembers the requested time before the file is searched; a rejected time is accepted when requested again. The
  time -1 marks a loader that has not been used.
* **C59.** `InterfaceData::WriteExodusOutput` writes the apertures before it computes them.
* **C60, C95, C96.** The time of a restart is written with six significant digits (Peridigm.cpp:4468) and compared exactly when read. The number
  of the next directory is taken from the name of the most recent one, whatever it is (Peridigm.cpp:975, 4456). The time between the last
  step and the final time is counted as done (Peridigm.cpp:4465).
* **C94.** `constructInterfaceData` considers only neighbours with a larger id, so that one-sided neighbours can be missed.
* **C97.** Dilatation and energy use the weighted volume of all bonds although broken bonds do not contribute to the sums; the internal force is then
  not the gradient of the stored energy.
* **C99.** `Compute_Acceleration` divides the force density by the density and leaves out the external force (Peridigm_Compute_Acceleration.cpp:76-81).
* **C101, C102.** `OutputManager_ExodusII::write` compares the number of the call, which is one more than the step, with the initial output step
  itself and with the final output step plus one (Peridigm_OutputManager_ExodusII.cpp:225); the count goes on from solver to solver although each
  solver writes its initial configuration.
* **C103.** `DiffusionMaterial::computeFluxDivergence` adds the flux of a bond only to the point itself (Peridigm_DiffusionMaterial.cpp:195), with
  that point's coefficient, horizon and quadrature weight.
* **C107.** The comment at nonlocal_diffusion.cxx:174-176 says that damage increases the permeability; with the sign of the exponent at line 177
  it decreases for positive `Permeability alpha` (0.25 in test/regression/Multiphysics_QS_3x2x2).
* `SpeciesConcentrationMaterial` is not known to `MaterialFactory` and cannot be reached; it stores its result in `Flux_Divergence` whereas the
  residual reads `Concentration_Flux_Divergence`. It is not modelled.
* **C110.** `executeImplicitDiffusion` applies the initial conditions after the boundary conditions (Peridigm.cpp:3117-3136), unlike the other
  solvers, so that an initial temperature replaces a prescribed one in the first output. Prescribed displacements are computed and ignored. The
  increment of a prescribed temperature since time zero is divided by the time since time zero, so a load step that ends at time zero terminates.
* **C111.** `executeImplicitDiffusion` adds entry i of the increment to temperature i (Peridigm.cpp:3217-3219) whatever the unknowns are, although
  displacements are unknowns unless "Solve For Displacement" is set to false; the reactions for the relative tolerance are then read beyond the
  end of `fluxDivergence` (3166-3176).
* **C113.** With more processors than cells, processors that get no points return a `QuickGridData` from its default constructor, whose number of
  points is -1 converted to `size_t` (QuickGrid.cxx:1947-1949, QuickGridData.h:70).
* **C114.** Unless "NeighborhoodType" is "Spherical", lists contain every cell of a rectangular window whose half width is the horizon rounded to whole
  cells, so points up to the horizon and half a cell away in each direction (QuickGrid.cxx:167, 400-401; PdQuickGridDiscretization.cpp:142-147).
* **C116.** `TensorProductCylinderMeshGenerator` ignores "Ring Center x" and "Ring Center y" (QuickGrid.cxx:1449-1450).
* **C117.** The number of rays searched is computed from the arc on the middle circle (QuickGrid.cxx:1355), so points within the horizon are missed where
  chords are shorter than that; if the window is wider than the ring, cells are listed more than once (QuickGrid.h:158, 169).
* **C118.** `hexCentroidAndVolume` divides by the volume without a test; an element without volume gives NaN instead of an error (GeometryUtils.cpp:334-338).
* **C119.** A triangle with two nodes at the same place is reported to intersect spheres that are far away: the normal of its plane is zero and the
  edge tests do not separate (GeometryUtils.cpp:444-570). Such triangles arise from wedge-shaped, collapsed hexahedra.
* **C120.** `tetrahedronSphereIntersection` and `hexahedronSphereIntersection` only look at the surface; an element that contains the whole sphere is
  reported to be outside, and a neighbor whose element contains the whole horizon is dropped (GeometryUtils.cpp:608-646, 712-851).
* **C122.** Blocks of spheres are assumed to have two attributes, radius and volume; with one attribute the loop reads beyond the end
  (ExodusDiscretization.cpp:410-449).
* **C124.** "Construct Interfaces" given as false takes back the decision to store the mesh that "Compute Element-Horizon Intersections" made
  (ExodusDiscretization.cpp:77-110); the program then ends when the intersections are computed.
* **C125.** "Omit Bonds Between Blocks" indexes a matrix of the size of the number of blocks by block id minus one (ExodusDiscretization.cpp:682-781,
  TextFileDiscretization.cpp:352-424); ids that are not 1, 2, ..., n lead to accesses outside it.
* **C126.** `trim` returns a text of blanks unchanged (Peridigm_Enums.cpp:297-305), so that a line of blanks in a text mesh is parsed and refused.
* **C127.** Entries of blocks are named by printing an int, points are assigned by printing a double with six digits
  (TextFileDiscretization.cpp:236-246); block ids of seven digits or more end the program.
* **C128.** The grid that is returned by load balancing has `unPack` false (QuickGrid.cxx:238, PdZoltan.cxx:303-318); balancing it again with exports but no imports
  would leave the exported points in place. No call in the repository does this.
* **C131.** in `InterfaceAwareDamageModel::computeDamage` a critical stretch of zero means "does not allow bond breaking" for the neighbor, but for the point itself it makes every extension critical. So the two sides of a bond between such blocks disagree (`C131_break` with `c = 0`, `C131_zero`).
* **C132.** `compute_lagrange_multipliers` reads the first entry of the neighborhood list before its loop over the points (pals.cxx:189), also on a processor that has none (`C132_none`). A point without neighbors, which other materials accept, ends the run (`C132_isolated`).
* **C134.** A damage model can be combined with the PALS material without complaint, but bonds that it breaks keep their force (`C134_broken`): the material declares `Bond_Damage` and never reads it.
* **C135.** With the improved quadrature the second part of the force of a bond, with dilatation and weighted volume of the neighbor, lacks the factor `1 - damage` (Peridigm_LinearLPSPVMaterial.cpp:372-374): a broken bond keeps half of its force (`C135_quadrature`). The forces are then given to the point only, so nothing makes them balance.
* **C137.** For a bond damaged in part the two materials differ: in elastic.cxx the deviatoric part carries the factor `1 - damage` twice, in the linear material once.
* **C138.** The message "gradient weights calculation failed" of the bond-associated material can never appear: `invertAndCond` always returns 0 (correspondence.cxx:563), so moment matrices without full rank are replaced by pseudo-inverses silently, and the deformation gradient is wrong (`C138_silent`, `C138_singular`).
* **C138.** Weights are recomputed only where the damage at N+1 exceeds that at N by 1e-15. "Initial Damage" sets both after the weights of the undamaged body have been computed, so its broken bonds carry stress as intact ones do (`C138_initial_damage`). In an implicit step an iterate that breaks a bond leaves its weights to the following ones (`C138_stale`).
* **C148.** `updateBondLevelElasticIsotropicSaturationExponentialHardeningPlasticCauchyStress` computes the triaxiality of a bond before it stores the new stress (isotropic_hardening_correspondence.cxx:1361-1362), so from what the field for step N+1 held: the stress of two steps before (zero in the first step). The Johnson-Cook damage model uses that value.
* **C145.** The parameters of the hardening rules are not checked.
* **C149.** Whether a material is a multiphysics one is decided by the word "Multiphysics" in the name the user gave it, not by its model (Peridigm.cpp:356-366). The combination of Multiphysics and Restart is refused on process 0 only.
* **C151.** In an input with a quasi-static solver and another one that needs only the 3x3 blocks, only the block-diagonal matrix is allocated and the quasi-static solver works with it.
* **C152.** Functions of time are evaluated in the constructor for time 0 and in the steps of `executeExplicit` only (Peridigm.cpp:1440-1480): other solvers keep the values of time 0, also if they run after time 0, and so does the first force evaluation of an explicit solver whose initial time is not 0. Between the evaluation at the previous and the current time the value is not reset, so a function that does not assign its value keeps that of the previous time.
* **C153.** `executeExplicit` makes the damage models anew in each step and does not give the interface-aware one the boundary condition manager (Peridigm.cpp:1452-1465), as the constructor does (444); the first evaluation uses the null pointer.
* **C154.** `InterfaceAwareDamageModel::computeDamage` puts local ids of the block into the node set RANK_DEFICIENT_NODES (198-205), the boundary condition manager takes the entries of node sets for global ids. In analyses without full tangent the set does not exist and the first such point ends the run.
* **C155.** Block_Data, Node_Set_Data, Nearest_Point_Data and JIntegral dereference their parameters, which are null if the name stands in an output list without compute class parameters. "Contact Force" beside "Contact_Force" gives two objects.
* **C157.** The bisection for the plastic increment (viscoplastic_needleman_correspondence.cxx:244-277) takes [0, 1] as interval. If the increment is larger than 1 both tested values are positive and the upper end is moved down, away from the root; each pass halves the interval, the relative change stays 1, and after 100000 passes the step goes on with an increment of 2^-100001 (in floating point 0, after divisions 0/0), so that the stress all but vanishes. The message names 1e6 iterations. The equation evaluates the flow stress at plastic strain eqps + x, the return at eqps + sqrt(2/3) x.
* **C158.** As in C83 and C84 the recorded increment uses directions divided by the trial magnitude and by the magnitude of the old stress: from a state without stress at most half of it is recorded.
* **C159.** Steps whose elastic stress lies below the static yield stress are taken to be "definitely elastic" (184-189), but the flow stress at low rates lies below it. Slow loading rises elastically to the yield stress and then drops.
* **C161.** If "Enable Flaw" is given, even as false, all flaw parameters are required.
* **C163.** The Jacobian determinant of a flying point is set to zero in the new state, while forces use those of the old one, so that in the first step of its flight a point still has the forces of its neighbors' bonds; afterwards it has none, even if it lands again, since the determinant is multiplied. A point that does not fly but whose neighbors have all flown for a step has weighted volume zero, by which correspondence.cxx:3014-3030 divides.
* **C164.** "Actual Horizon" is the horizon of the influence function only, and the default function One (as Gaussian) does not vanish beyond it: points of the neighbor list interact at any distance.
* **C166.** Velocities are those of the middle of the step while coordinates are those of its end, so that in a rotation the velocity gradient 1 - Q^T (over dt) has a positive trace: Jacobian determinants grow by the factor 4 - tr Q in every step.
* **C167.** isotropic_hardening_correspondence.cxx:608-610: the triaxiality at points is computed inside of the branch of plastic steps. The version for bonds lacks the test at 521 of the version for points, whether the trial stress exceeds the estimated yield stress; stresses are scaled up to it.
* **C168.** The Jacobian determinant is integrated with the trace, the deformation gradient with the velocity gradient; after a step of uniform expansion that doubles lengths one is 4, the determinant of the other 8. The Green-Lagrange strain of a rigid motion grows by half of dt^2 W^T W.
* Hypoelastic materials: bond damage and flying point flags are those of step N; the class of the hardening material names itself "Elastic Plastic Hypoelastic Correspondence".
* **C172.** kdtree.h:402-479: the cut is the middle of the extent, so that of points at the same place none is below it; the right subtree is then the tree itself, and make_tree calls itself until the array of nodes (or the stack) is exceeded. The same happens if the middle is rounded to the smaller coordinate, as that of 1 and 1 + 2^-52. (NeighborhoodList.cxx:627 has the line that would use this tree commented out; the class is part of the library.)
* **C173.** ZoltanSearchTree finds points at the same place, JAMSearchTree cannot be built of them.
* kdtree.h:735-743 says that every point is in one leaf and, but for one, in one inner node. Only the number of nodes is used; the ids of inner nodes need not be different.
* **C175.** Peridigm_ElasticPlasticHardeningMaterial.cpp:117-144 replaces the factor by its inverse (as the older materials, which divide by it, expect), but its kernel multiplies by it: a surface point that is too stiff by 15/4 without correction is too stiff by 225/16 with it.
* **C176.** material_utilities.cxx:333-372: a point with fewer than two neighbors, or with all of them on one line, has no distortion in the probing shears, and the factor is a division by zero (the code neither checks nor reports it). If all neighbors are on lines parallel to the axes (a regular grid whose horizon is less than sqrt(2) times the spacing) the extensions are of second order in gamma, and the factor is at least 10^12.
* **C177.** The probing shears are in the planes of the coordinate axes; a body turned by 45 degrees gets another factor.
* **C178.** As C97: the weighted volume is the one of all bonds, also when some are broken, so that the forces of a damaged body are not those of its energy.
* **C179.** Peridigm_Compute_Deformation_Gradient.cpp:103 has `retval = retval || compute...(...)`: once a block has returned a code the function is not called for the others, whose deformation gradients stay what they were (zero at first). One point with fewer than three neighbors is enough. The warning is printed by processor 0 only, and only for its own blocks.
* **C180.** Peridigm_Compute_Error.cpp:246-247 compares with 1.0e12 where 1.0e-12 must be meant, so that boxes that are not cubes pass, and the error is then computed with the square of the first side for the product of the other two. The check at 151-171 counts nodes at each limit, and accepts four corners of a cube taken twice.
* **C189.** `initializeExodusDatabase` replaces spaces and periods of the file name by underscores, so two output sections named `a.b` and `a_b` write to the same file: the second one to be created destroys the first (`different_sections_share_a_file`).
* **C191.** Names of variables, blocks and node sets are copied with `strcpy` into buffers of 33 bytes; labels of the compute classes `Block_Data`, `Nearest_Point_Data` and `Node_Set_Data` are chosen by the user and not checked (`long_label_overruns`). A vector with label `Point` and a scalar with label `PointX` are numbered as if they had different names, although the map has one entry: the run ends with an exception or a pointer outside of the table is written through (`clash_of_names_fails`). A nodal field that some block does not have stops the run, element fields are skipped for such blocks (`nodal_field_of_one_block_fails`).
* **C192.** The values of the entries of `Output Variables` are never read, so `false` requests the variable (`value_of_request_is_ignored`, `false_variable_is_written`).
* **C194.** The first contact evaluation uses the friction coefficient at time zero even if the simulation starts at another time. The variable `value` of the parser is not reset between the evaluation at the previous time and that at the current time, so that a function assigning `value` only under a condition yields the value of the previous time.
* **C195.** The contact model is always the first entry of "Models", whichever the interactions name (`C195_named_false`). The default friction coefficient is a number, so that a time-dependent model without one fails with a type error.
* **C196.** The list of interactions is only printed: all contact blocks are in contact with each other and with themselves. Of several definitions for a pair the one with the greatest model name is kept, not the final one; a single interaction written with the greater block first is not recognised as the same pair; with no interaction the end iterator of an empty set is incremented. For implicit and quasi-static solvers contact forces are evaluated but never added (`exportData` is called in `executeExplicit` only; not modelled).
* **C197.** "Scale Factor" multiplies the positions but not the volumes (`C197_scale_fails`). A block whose name has no number after an underscore (e.g. "balls") makes the converter throw, two names with the same number make it terminate, and the id of a block changes to the number in its name.
* **C198.** Node sets are written with global ids where the file wants the places of the nodes; with an element number map other than the identity the sets change, and ids beyond the number of points make reading the converted mesh undefined (`C198_fails`, `C198_undefined`).
* **C199.** A node set that has the name of a boundary layer is not noticed by the converter; the mesh it writes cannot be read (`C199_clash`).
* **C202.** The first record of a solver that follows another one and does not evaluate the model first (all but the explicit solver) shows hourglass forces that are the sum of the last but one step times the number of copies of the point (`C202_next_solver`, `C202_wrong_first_record`).
* **C203.** The same record shows dilatation, damage, stresses and all other two-step fields that are not copied from a global vector as they were one step earlier, beside the current displacements (`C203_next_solver`, `C203_wrong_first_record`).
* **C205.** An elastic block beside a bond-associated or hypoelastic correspondence block is refused, because a field synchronised for one block must be stored by all (`C205_elastic_beside`).
* **C206.** Initial values are set in ghosts too and then summed over all copies: the Jacobian determinant of step N+1 is the number of copies of the point until the first evaluation (`C206_jacobian`).
* **C207.** Beside a block of another material that stores a dilatation (e.g. "Elastic"), the dilatation of a "Linear LPS Partial Volume" point is contaminated by its ghosts in that block, which are never cleared: it grows like 1 + m + m^2 + ... with the evaluations that use the same data container (`C207_grows`).
* **C208.** `updateGreenLagrangeStrain` adds dt times the strain rate at the *new* deformation gradient with the mid-step
  velocity.  In explicit integration the result is the true strain plus half the sum of the squares of all changes of the
  deformation gradient: rotating bodies are written with strains that grow without bound, and at time zero the
  strain is dt times the initial rate of deformation although nothing has moved.  The field is for output only.
* **C210.** The rate of deformation of a step is taken relative to the configuration at its end, so that stretching by
  r adds the strain 1 - 1/r and returning adds 1 - r: every closed path leaves a pressure, of first order in the
  size of the steps (a body doubled and halved in two steps keeps the volumetric strain -3/2).
* **C211.** Initial conditions reach the vectors of the analysis (Peridigm.cpp:690-692) but the stress of correspondence
  materials only follows velocities: an initial displacement is taken as a new stress-free configuration, whereas the
  state-based materials (LPS etc.) feel it.  The comment at Peridigm.cpp:695 ("Initialization functions require valid
  initial values, e.g. velocities and displacements") is not met: blocks still hold the reference coordinates there.
* **C212.** `workset->timeStep` is set before the evaluation at time zero (Peridigm.cpp:1320), so the stress written there,
  and the force that starts the integration, contain dt times the initial rate of deformation.
* **C219.** elastic_plastic.cxx sets `OMEGA=1.0` in the forces and in the norm (line 145), while weighted volume
  and dilatation use the influence function of the input: with a constant influence function w the material is softer
  than the elastic one by the factor w before it yields, and with a decaying one it has other moduli than the input.
* **C221.** As C90, for automatic differentiation: `computeAutomaticDifferentiationJacobian` has no argument for the
  kind of the tangent and always adds full neighborhoods.
* **C223.** With broken bonds the trial state of a yielding point has a mean (the weighted volume is not reduced by
  damage but the dilatation is), and the consistent tangent is not symmetric. The default linear solver is Belos
  "BlockCG" (Peridigm.cpp:2551, 3068, 3680), which needs a symmetric matrix.
* **C226.** `quasiStaticsDampTangent` (Peridigm.cpp:3302-3319) scales the diagonal by a factor above one and
  adds a multiple of the infinity norm, so a negative diagonal entry can become more negative; damping then moves an
  unstable tangent away from definiteness instead of towards it.
* **C227.** In damped mode a linear solve that fails is repeated with the identical matrix (Peridigm.cpp:2811-2821);
  only the preconditioner is dropped, and if there is none the same system is solved twice.
* **C228.** `jacobianDiagnostics` (Peridigm.cpp:1887-1932) compares the Jacobian with a copy of itself: `CreateTranspose`
  reassigns its pointer argument. The reported asymmetric norm is zero for every matrix and the "symmetric" norm is that of
  the whole matrix.
* **C231.** For `TensorProductCylinderMeshGenerator` the assignment of the smallest element radius is commented out
  (Peridigm_PdQuickGridDiscretization.cpp:223-225), so it keeps its start value 1e50: the default finite difference probe is
  1e44 and tangents by finite differences are meaningless unless the material gives a probe length. The element dimension
  stays zero.
* **C232.** Four labels are registered with two different types by different components ("Deformation_Gradient",
  "Velocity_Gradient", "Green_Lagrange_Strain", "Jacobian_Determinant"). Asking for the output of the deformation gradient
  ends the program if a block has a hypoelastic material, as does the Johnson-Cook damage model with a bond associated
  material, though each of these works alone.
* **C234.** `allocateBlockDiagonalJacobian` (Peridigm.cpp:4119-4172) allocates three rows and 3x3 blocks for each point, and
  `SerialMatrix::addBlockDiagonalValues` takes the point of an index to be index/3, but the unknowns of the coupled material
  are numbered by fours. With "Block 3x3" as preconditioner and no full tangent the coupled material always ends the program.
* **C236.** `TensorProductSolidCylinder::computePdGridData` returns a wrong locator when the last point of a processor is a core: the next processor starts in another row. Cells are then missing or twice in the mesh. The cylinder of the unit tests (57 points) loses point 20 on ten processors (`C236_missing`). The class is used by unit tests on one and two processors only.
* **C239.** `RingVolumeFractionCalculator::operator()` takes the center of the ring into account in the radius and the angle of the cell but does not add it to the positions of the parts (calculators.cxx:220-221), so for a ring about another line than the z axis the volumes of the bonds are wrong, possibly zero for all bonds (`C239_center`). The header has a note that this may need to be checked.
* **C241.** `WITH_BOND_VOLUME::compute_norm_2_deviatoric_extension` calls `computeDilatation` without its argument `OMEGA` (material_utilities.cxx:638); the default is the influence function selected globally. With another one a uniform expansion has a deviatoric part (`C241_default`).
* **C245.** `InterfaceData::InitializeExodusOutput` writes the numbers of the elements in the order of the interfaces, but the elements in the file are sorted by block, quadrilaterals first. In meshes of wedges an element can carry the number of another interface (`C245_ids_mixed`). (The third coordinate is named "coordinates_x" in the file.)
* **C248.** Compute objects run in the order in which they were made: those of output variables, then those of "Compute Class Parameters". A reduction given there before the class that fills its variable shows the values of the previous record (`C248_stale`); a reduction of a field that is registered but filled by no object is accepted (`C248_uncomputed`); two reductions with one "Output Label" share a field (`C248_shared`). "Deformation_Gradient" cannot be output with a hypoelastic correspondence material (`C248_hypoelastic`).
* **C249.** A "Value" given as a double is printed into a stream with its default precision and then compiled, so that it is rounded to six digits: 0.1234567 becomes 0.123457 (`C249_value_partial`, `C249_value_lost`). In a node file everything after the first thing on a line that is no number is dropped without a message: "1, 2, 3" gives node 1 (`C249_comma`). A node file whose name begins with a digit other than zero is taken for a list and refused (`C249_file_unusable`). A condition whose own name contains "node set" is refused (`C249_condition_name`). The coordinate "no such spatial coordinate" is accepted and gives the index -1 (`C249_no_coordinate`), and a condition of the type "no such boundary condition type" is ignored (`C249_section`). White space at the end of a list repeats its last node (`C249_list_partial`, see C64).
* **C250.** The variable `value` is set to zero once, before the evaluation at the previous time; the one at the current time starts with what that left. A function such as `if(t < 1) {value = 5;}` keeps its value in the step that crosses time 1 (`C250_stale`).
* **C251.** `OutputManager_ExodusII` reads "Bond Family" but the list it validates against does not have it, so that a section with it is always refused (`C251_bond_family`). "Output Format" may be "ASCII" according to the validation but is then refused (`C251_ascii`). Sections without "Output Filename" share the file dump.e (`C251_same_file`). A section without "Output Frequency" writes nothing, without a message (`C251_silent`).
* **C254.** `computeInternalForceViscoelasticStandardLinearSolid` computes forces with the influence function set to one (`OMEGA` in line 87), while dilatation and weighted volume use the influence function of the input. With an influence function that is w on every bond the forces are 1/w times those of the elastic material, even without relaxation (`C254_influence_ignored`, `C254_not_elastic`).
* **C257.** `ComputeCriticalTimeStep` estimates the stiffness of a point by bond-based spring constants `18 K / (pi h^4)`, which is no bound on the stiffness of the state-based materials. For two bonded points the estimate exceeds the stability limit of the LPS material, and with any safety factor of at least one half the smallest disturbance grows without bound (`C257_unstable`).
* **C258.** `executeImplicit` does not evaluate the forces of the initial configuration; the first step uses what the acceleration vector holds, zero in a new analysis. A body that begins out of balance has the wrong acceleration in its first step: two points released from a stretched state lose nine tenths of their energy (`C258_first_step_loses`). `executeExplicit` does compute the initial acceleration.
