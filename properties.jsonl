{"id": "C01", "title": "Field ids are stable, unique and dense", "statement": "Asking the field registry for a (relation, length, temporal, label) specification returns the same integer id every time it is asked during a run, two different specifications never share an id, the ids in use are exactly 0..n-1 in order of first request, and looking the id up returns the specification that was registered.", "quantifier": "every finite sequence of registration requests, in any order, with any repetition", "why_tests_cant": "the guarantee is about every history of requests made by materials, damage models, compute classes and output in an arbitrary order; a unit test registers a handful of fields in one order", "anchors": ["src/core/Peridigm_Field.cpp: FieldManager::getFieldId(relation,length,temporal,label), FieldManager::getFieldSpec(int)"]}
{"id": "C02", "title": "One label, one specification (case-insensitively)", "statement": "A registration request whose label differs from an existing label only in upper/lower case, or that re-uses a label with a different relation, length or temporal kind, is rejected and leaves the registry unchanged; therefore at any time no two registered fields have labels equal up to case, and look-up by label succeeds exactly for the labels registered and returns the id that registration returned.", "quantifier": "every sequence of requests, accepted or rejected, and every label", "why_tests_cant": "the invariant must survive every interleaving of accepted and rejected requests", "anchors": ["src/core/Peridigm_Field.cpp: FieldManager::getFieldId, FieldManager::hasField, FieldManager::getFieldId(string)"]}
{"id": "C03", "title": "Two-step data shift correctly at every state update", "statement": "For a two-step field, what a model stored at step N+1 is exactly what is read at step N after the next state update, and remains so until that slot is written again or the next update happens; reads and writes of one field never affect another field.", "quantifier": "every finite history of writes and state updates on a data manager with any set of fields", "why_tests_cant": "history property; time integration calls updateState an unbounded number of times", "anchors": ["src/core/Peridigm_DataManager.hpp: DataManager::updateState", "src/core/Peridigm_DataManager.cpp: DataManager::getData", "src/core/Peridigm_State.cpp: State::getData"]}
{"id": "C04", "title": "State-less data survive state updates", "statement": "Data of a constant (state-less) field change only when that field is written; state updates never change or swap them.", "quantifier": "every finite history of writes and state updates", "why_tests_cant": "history property over unboundedly many updates", "anchors": ["src/core/Peridigm_DataManager.hpp: DataManager::updateState"]}
{"id": "C05", "title": "Global data are shared by all blocks and shift once per step", "statement": "A global two-step quantity written through any block is read with the same value through every block, and after all blocks have performed their state update for a step its step-N value equals the step-N+1 value, no matter how many blocks there are and in which order they update.", "quantifier": "every number of blocks, every order of per-block updates, every history of writes", "why_tests_cant": "depends on the number of blocks and order of updates; tests use one or two blocks", "anchors": ["src/core/Peridigm_DataManager.hpp: DataManager::updateState", "src/core/Peridigm_DataManager.cpp: DataManager::allocateData, getData"]}
{"id": "C06", "title": "Querying for data never crashes and agrees with fetching it", "statement": "hasData(field, step) can be asked for any allocated configuration without failing, and it answers true exactly when getData(field, step) delivers the vector that was allocated for that field at that step.", "quantifier": "every set of allocated fields, every field id and every step", "why_tests_cant": "tests only query configurations in which all three states exist", "anchors": ["src/core/Peridigm_DataManager.cpp: DataManager::hasData, DataManager::getData, DataManager::allocateData"]}
{"id": "C07", "title": "Copying owned data matches entries by global id", "statement": "Copying locally owned data from one data manager to another gives every point owned by the target the source's value for the same global id, regardless of the local orderings and of additional points held by the source, and fails loudly if the source lacks a point.", "quantifier": "every pair of point maps (any orderings, any superset) and every stored value", "why_tests_cant": "must hold for every permutation and every subset of ids", "anchors": ["src/core/Peridigm_State.cpp: State::copyLocallyOwnedDataFromState, State::copyLocallyOwnedMultiVectorData", "src/core/Peridigm_DataManager.cpp: DataManager::copyLocallyOwnedDataFromDataManager"]}
{"id": "C08", "title": "Redistribution keeps every point's data", "statement": "After data are redistributed to new owned/overlap maps, every owned point and every ghost point holds the value that the owner of the same global id held before, for every processor count and every old and new distribution.", "quantifier": "every assignment of global ids to processors before and after, every value", "why_tests_cant": "quantifies over all partitions; tests run a few processor counts", "anchors": ["src/core/Peridigm_DataManager.cpp: DataManager::rebalance, DataManager::scatterToGhosts"]}
{"id": "C09", "title": "Neighborhood list encoding is faithful", "statement": "The flat neighborhood list (count, ids, count, ids, ...) determines each owned point's list of neighbors uniquely, including points with no neighbors, and traversing it visits every bond of every owned point exactly once, in order, and never reads outside the list.", "quantifier": "every list of neighborhoods", "why_tests_cant": "all kernels share this traversal; only a general proof excludes an off-by-one for some neighborhood shape", "anchors": ["src/core/Peridigm_NeighborhoodData.hpp: NeighborhoodData", "src/materials/elastic.cxx: computeInternalForceLinearElastic", "src/materials/material_utilities.cxx: computeDilatation"]}
{"id": "C10", "title": "Block neighborhoods equal the global neighborhoods", "statement": "Splitting the discretization into blocks preserves bonds: for every point, the neighbors seen by its block (identified by global id, in order) are exactly the neighbors the discretization gave it, and every neighbor id stored in a block is a valid local id of that block.", "quantifier": "every set of points, block assignment, and neighborhood list", "why_tests_cant": "quantifies over all meshes and all block partitions", "anchors": ["src/core/Peridigm_BlockBase.cpp: BlockBase::createMapsFromGlobalMaps, BlockBase::createNeighborhoodDataFromGlobalNeighborhoodData"]}
{"id": "C11", "title": "Blocks partition the owned points and ghost exactly what they need", "statement": "Every owned point belongs to exactly one block's owned map; a block's ghost ids are exactly the neighbors of its points that it does not own; no id occurs twice in a block's overlap map; and bond storage exists exactly for points having at least one bond, with one entry per bond.", "quantifier": "every set of points, block assignment and neighborhood list", "why_tests_cant": "quantifies over all meshes and partitions", "anchors": ["src/core/Peridigm_BlockBase.cpp: BlockBase::createMapsFromGlobalMaps"]}
{"id": "C12", "title": "Force assembly over blocks is the sum of all contributions", "statement": "The assembled nodal force at a point is the sum of the contributions made to that global id by every block on every processor, whether as owned point or as ghost, and does not depend on the order in which blocks are processed.", "quantifier": "every number of blocks and processors, every distribution, every contribution", "why_tests_cant": "order- and distribution-independence is a universally quantified statement", "anchors": ["src/core/Peridigm.cpp: Peridigm::executeExplicit (force assembly loop)", "src/core/Peridigm_BlockBase.cpp: BlockBase::exportData"]}
{"id": "C13", "title": "Post-precompute synchronisation gives every copy the total", "statement": "Synchronising a field after precompute leaves the same value in every copy (owned or ghost, in every block) of a point, namely the sum of all blocks' contributions; synchronising again without new contributions does not change it.", "quantifier": "every number of blocks, every field value, every number of synchronisations", "why_tests_cant": "history property (repeated synchronisation), all distributions", "anchors": ["src/core/Peridigm_Block.cpp: DataManagerSynchronizer::synchronize"]}
{"id": "C14", "title": "Redistributing a neighbor list preserves neighbors", "statement": "Moving a neighbor list from the search decomposition to the mesh decomposition keeps, for every point, the same neighbors by global id and in the same order, including points without neighbors, and the produced overlap map contains exactly the owned points followed by the off-processor neighbors, each once.", "quantifier": "every pair of decompositions and every neighbor list", "why_tests_cant": "all decompositions cannot be tested", "anchors": ["src/io/Peridigm_ProximitySearch.cpp: ProximitySearch::RebalanceNeighborhoodList"]}
{"id": "C15", "title": "Neighbor search finds exactly the points within the radius, on any number of processors", "statement": "The neighbors found for a point are exactly the other points within its search radius that no bond filter excludes, independent of how the points are distributed over processors.", "quantifier": "every point set, every search radius per point, every processor decomposition", "why_tests_cant": "distribution independence for every point set", "anchors": ["src/io/pdneigh/NeighborhoodList.cxx: NeighborhoodList::createAndAddNeighborhood, buildNeighborhoodList", "src/io/Peridigm_ZoltanSearchTree.cpp: ZoltanSearchTree::FindPointsWithinRadius"]}
{"id": "C16", "title": "Bond filters cut bonds symmetrically", "statement": "A bond filter (rectangular plane, disk, triangle, quad) removes the bond from p to q exactly when it removes the bond from q to p, and it removes a bond only if the segment meets the filter's plane within the filter's extent.", "quantifier": "every filter geometry and every pair of end points (exact arithmetic)", "why_tests_cant": "continuous input space", "anchors": ["src/io/pdneigh/BondFilter.cxx: FinitePlane::bondIntersectInfinitePlane, FinitePlane::bondIntersect, DiskFilter::bondIntersectsDisk, TriangleFilter::bondIntersectsTriangle, QuadFilter::bondIntersectsQuad"]}
{"id": "C17", "title": "Internal forces conserve linear momentum", "statement": "The internal force densities produced by the state-based elastic, bond-based, elastic-plastic and viscoelastic materials, weighted by cell volume, sum to zero, for any positions, volumes, damage, neighborhoods and history variables.", "quantifier": "every configuration, damage state, neighborhood structure and material constant (exact arithmetic)", "why_tests_cant": "continuous input space, any number of points", "anchors": ["src/materials/elastic.cxx: computeInternalForceLinearElastic", "src/materials/elastic_bond_based.cxx: computeInternalForceElasticBondBased", "src/materials/elastic_plastic.cxx: computeInternalForceIsotropicElasticPlastic", "src/materials/viscoelastic.cxx: computeInternalForceViscoelasticStandardLinearSolid"]}
{"id": "C18", "title": "Internal forces conserve angular momentum", "statement": "The moments of the internal forces of these materials about the origin sum to zero in every configuration without coincident bonded points.", "quantifier": "every configuration, damage state and neighborhood structure (exact arithmetic)", "why_tests_cant": "continuous input space, any number of points", "anchors": ["src/materials/elastic.cxx: computeInternalForceLinearElastic", "src/materials/elastic_bond_based.cxx"]}
{"id": "C19", "title": "Internal forces are objective", "statement": "Superposing a rigid motion on the deformed configuration leaves the dilatation unchanged and rotates the internal forces with the body.", "quantifier": "every rotation, translation and configuration (exact arithmetic)", "why_tests_cant": "continuous input space", "anchors": ["src/materials/elastic.cxx: computeInternalForceLinearElastic", "src/materials/material_utilities.cxx: computeDilatation"]}
{"id": "C20", "title": "No force in a rigidly moved reference configuration", "statement": "If the deformed configuration is a rigid motion of the reference configuration (and there is no temperature change), dilatation and internal force vanish at every point, whatever the damage.", "quantifier": "every mesh, rigid motion, damage state", "why_tests_cant": "continuous input space, any number of points", "anchors": ["src/materials/elastic.cxx: computeInternalForceLinearElastic", "src/materials/material_utilities.cxx: computeDilatation"]}
{"id": "C21", "title": "Broken bonds carry no load", "statement": "A bond with damage 1 contributes neither to the dilatation of its point nor to the internal force of either end; a point all of whose bonds, in both directions, are broken has zero internal force.", "quantifier": "every configuration and every damage pattern", "why_tests_cant": "all damage patterns", "anchors": ["src/materials/elastic.cxx: computeInternalForceLinearElastic", "src/materials/material_utilities.cxx: computeDilatation", "src/materials/elastic_bond_based.cxx"]}
{"id": "C22", "title": "Weighted volume is positive for connected points", "statement": "A point with at least one neighbor of positive volume at non-zero distance with positive influence has positive weighted volume, so dilatation and force are well defined; weighted volume does not depend on the order of the neighbors.", "quantifier": "every neighborhood", "why_tests_cant": "continuous input space", "anchors": ["src/materials/material_utilities.cxx: computeWeightedVolume"]}
{"id": "C23", "title": "Plastic flow respects the yield condition and is irreversible", "statement": "In the elastic-plastic material, after every step the deviatoric force state at an undamaged point does not exceed the yield value, the accumulated plastic multiplier never decreases, and a step below yield changes no plastic variable.", "quantifier": "every loading history", "why_tests_cant": "unbounded histories, continuous inputs", "anchors": ["src/materials/elastic_plastic.cxx: computeInternalForceIsotropicElasticPlastic"]}
{"id": "C24", "title": "Viscoelastic back-extension stays within the loading history", "statement": "The viscoelastic internal variable of a bond always remains between the smallest and the largest deviatoric extension the bond has experienced, for any positive time step and relaxation time, over any history.", "quantifier": "every time-step size, relaxation time and loading history", "why_tests_cant": "unbounded histories", "anchors": ["src/materials/viscoelastic.cxx: computeInternalForceViscoelasticStandardLinearSolid"]}
{"id": "C25", "title": "Critical-stretch damage is irreversible and complete", "statement": "With the critical stretch damage model a bond's damage is 0 or 1, never decreases, and is 1 after a step exactly if the bond was already broken or its (thermally corrected) stretch in that step exceeds the critical value.", "quantifier": "every loading history", "why_tests_cant": "unbounded histories", "anchors": ["src/damage/Peridigm_CriticalStretchDamageModel.cpp: CriticalStretchDamageModel::computeDamage"]}
{"id": "C26", "title": "Point damage is the fraction of broken bonds", "statement": "The reported damage of a point is the number of its broken bonds divided by the number of its bonds (0 for a point without bonds), lies in [0,1] and never decreases.", "quantifier": "every loading history and neighborhood", "why_tests_cant": "unbounded histories", "anchors": ["src/damage/Peridigm_CriticalStretchDamageModel.cpp: CriticalStretchDamageModel::computeDamage"]}
{"id": "C27", "title": "Time-dependent critical-stretch damage is irreversible", "statement": "With the user-defined time-dependent critical stretch damage model a broken bond stays broken.", "quantifier": "every loading history", "why_tests_cant": "needs at least two state updates after breaking and depends on which of the two step buffers is looked at", "anchors": ["src/damage/Peridigm_UserDefinedTimeDependentCriticalStretchDamageModel.cpp: computeDamage"]}
{"id": "C28", "title": "Stress-based damage accumulates monotonically within [0,1]", "statement": "With the von Mises stress and Johnson-Cook damage models the damage variable never decreases during a run and stays within [0,1].", "quantifier": "every stress/strain history", "why_tests_cant": "unbounded histories", "anchors": ["src/damage/Peridigm_VonMisesStressDamageModel.cpp: computeDamage", "src/damage/Peridigm_JohnsonCookDamageModel.cpp: computeDamage"]}
{"id": "C29", "title": "Contact forces are short-ranged, repulsive, and balanced", "statement": "The short-range contact model produces no force between points at or beyond the contact radius, pushes closer points apart along the line joining them, and (volume-weighted) contact forces including friction sum to zero.", "quantifier": "every configuration, contact list and friction coefficient (exact arithmetic)", "why_tests_cant": "continuous input space, any number of points", "anchors": ["src/contact/Peridigm_ShortRangeForceContactModel.cpp: computeForce"]}
{"id": "C30", "title": "Contact search excludes bonded pairs and nothing else", "statement": "The contact neighbors of a point are exactly the points found by the contact search that are not bonded to it.", "quantifier": "every search result and bond list", "why_tests_cant": "all lists", "anchors": ["src/core/Peridigm_ContactManager.cpp: ContactManager::contactSearch, createRebalancedContactNeighborhoodData"]}
{"id": "C31", "title": "Each pair of blocks has one contact definition, the last one given", "statement": "After processing the input, every pair of blocks has at most one contact interaction, whichever way round the blocks were named, and if several were given the last definition is used.", "quantifier": "every list of contact definitions", "why_tests_cant": "all input decks", "anchors": ["src/core/Peridigm_ContactManager.cpp: ContactManager::createContactInteractionsList"]}
{"id": "C32", "title": "Prescribed displacements are met at every explicit step", "statement": "In explicit dynamics, at every completed step the displacement of a node with a prescribed displacement f(t) equals f at that step's time, provided it did initially.", "quantifier": "every function f of time, every number of steps, whatever the forces", "why_tests_cant": "unbounded number of steps, arbitrary forces", "anchors": ["src/core/Peridigm_BoundaryCondition.cpp: DirichletIncrementBC::apply, BoundaryCondition::evaluateParser", "src/core/Peridigm.cpp: Peridigm::executeExplicit"]}
{"id": "C33", "title": "Body forces on the same node add up", "statement": "If several body force definitions apply to the same node and direction, the external force there is their sum; nodes without a definition have no external force.", "quantifier": "every list of body force definitions and node sets", "why_tests_cant": "all input decks", "anchors": ["src/core/Peridigm_BoundaryCondition.cpp: DirichletBC::apply", "src/core/Peridigm_BoundaryAndInitialConditionManager.cpp: applyForceContributions"]}
{"id": "C34", "title": "Constrained residual rows are zeroed and nothing else", "statement": "Applying kinematic boundary conditions to a residual vector sets exactly the entries of constrained degrees of freedom to zero, is idempotent, and does not depend on the order of the boundary conditions.", "quantifier": "every list of boundary conditions, node sets and residual vectors", "why_tests_cant": "all input decks", "anchors": ["src/core/Peridigm_BoundaryAndInitialConditionManager.cpp: applyKinematicBC_InsertZeros"]}
{"id": "C35", "title": "Constrained rows and columns of the tangent decouple", "statement": "After applying kinematic boundary conditions to the tangent matrix, every constrained row and column is zero except for the diagonal, which holds one common non-zero value, and all entries between unconstrained degrees of freedom are unchanged, so constrained increments solve to zero.", "quantifier": "every sparse matrix and set of constrained degrees of freedom", "why_tests_cant": "all matrices", "anchors": ["src/core/Peridigm_BoundaryAndInitialConditionManager.cpp: applyKinematicBC_InsertZerosAndSetDiagonal"]}
{"id": "C36", "title": "Explicit integration covers the requested time span", "statement": "With time step dt>0 the explicit integrator performs a number of steps such that the last step time does not exceed the final time and comes within one step of it.", "quantifier": "every initial time, final time and step size (exact arithmetic)", "why_tests_cant": "continuous inputs", "anchors": ["src/core/Peridigm.cpp: Peridigm::executeExplicit"]}
{"id": "C37", "title": "Positions always equal reference position plus displacement", "statement": "After every explicit step the current position of each point equals its reference position plus its displacement.", "quantifier": "every number of steps, force law and boundary condition", "why_tests_cant": "invariant over unbounded runs", "anchors": ["src/core/Peridigm.cpp: Peridigm::executeExplicit"]}
{"id": "C38", "title": "Explicit dynamics conserves total linear momentum", "statement": "Without external forces and boundary conditions, the total linear momentum of a body modelled with the state-based elastic material is the same after every explicit step.", "quantifier": "every initial state, mesh, damage evolution, number of steps (exact arithmetic)", "why_tests_cant": "unbounded runs, any number of points", "anchors": ["src/core/Peridigm.cpp: Peridigm::executeExplicit", "src/materials/elastic.cxx: computeInternalForceLinearElastic"]}
{"id": "C39", "title": "Explicit integration is time-reversible", "statement": "Reversing the velocities after any number of explicit steps with a position-dependent force and integrating the same number of steps returns to the initial configuration with reversed velocities.", "quantifier": "every force field depending on positions, every number of steps (exact arithmetic)", "why_tests_cant": "unbounded runs", "anchors": ["src/core/Peridigm.cpp: Peridigm::executeExplicit"]}
{"id": "C40", "title": "Load steps advance monotonically to the final time", "statement": "The quasi-static solver visits strictly increasing times, and the last load step ends at the requested final time, also when failed load steps are subdivided.", "quantifier": "every number of load steps and every pattern of convergence failures", "why_tests_cant": "all failure patterns", "anchors": ["src/core/Peridigm.cpp: Peridigm::executeQuasiStatic"]}
{"id": "C41", "title": "Adaptive load stepping always terminates", "statement": "The adaptive quasi-static loop performs a bounded number of load-step attempts: it either reaches the end of its step list or gives up after the configured number of cutbacks.", "quantifier": "every pattern of convergence successes and failures", "why_tests_cant": "termination for all failure patterns", "anchors": ["src/core/Peridigm.cpp: Peridigm::executeQuasiStatic"]}
{"id": "C42", "title": "Unconverged load steps are never committed", "statement": "A quasi-static load step updates the displacement and shifts the state only if the solver accepted the step; after a rejected attempt the next attempt starts from the last accepted displacement and state.", "quantifier": "every pattern of convergence successes and failures", "why_tests_cant": "all failure patterns", "anchors": ["src/core/Peridigm.cpp: Peridigm::executeQuasiStatic"]}
{"id": "C43", "title": "Implicit dynamics keeps the Newmark relations and enforces prescribed motion", "statement": "After every implicit step displacement, velocity and acceleration satisfy the Newmark update formulas with the previous step's values, positions equal reference plus displacement, and nodes with prescribed displacement follow it.", "quantifier": "every residual/solver behaviour and number of steps", "why_tests_cant": "unbounded runs, arbitrary solver outcomes", "anchors": ["src/core/Peridigm.cpp: Peridigm::executeImplicit"]}
{"id": "C44", "title": "Line search returns the best candidate and leaves the increment unchanged", "statement": "The quasi-static line search returns a step length whose residual is smallest among the step lengths it evaluated (when it improves the residual), each evaluated at its own trial configuration, and leaves the displacement increment unchanged.", "quantifier": "every residual function", "why_tests_cant": "arbitrary residual functions", "anchors": ["src/core/Peridigm.cpp: Peridigm::quasiStaticsLineSearch"]}
{"id": "C45", "title": "Preconditioner is rebuilt when it exceeds its maximum age", "statement": "The preconditioner used by the nonlinear solver is never reused for more than the configured maximum number of applications since it was built.", "quantifier": "every maximum age and every sequence of calls", "why_tests_cant": "history property", "anchors": ["src/core/Peridigm.cpp: Peridigm::computePreconditioner"]}
{"id": "C46", "title": "The nonlinear residual depends only on the current trial state", "statement": "Evaluating the residual twice at the same trial solution returns the same value.", "quantifier": "every sequence of residual evaluations", "why_tests_cant": "history property", "anchors": ["src/core/Peridigm.cpp: Peridigm::evaluateNOX"]}
{"id": "C47", "title": "Degrees of freedom get disjoint contiguous slots", "statement": "The active unknowns of a node (displacement, temperature, concentration, pressure) occupy disjoint contiguous index ranges that together cover exactly the total number of degrees of freedom; hence (node, unknown) to matrix row is one-to-one; re-initialising gives the same layout.", "quantifier": "every combination of active unknowns, every number of (re-)initialisations and every node id", "why_tests_cant": "all combinations and histories", "anchors": ["src/core/Peridigm_DegreesOfFreedomManager.cpp: DegreesOfFreedomManager::initialize"]}
{"id": "C48", "title": "Tangent sparsity covers all couplings and only those", "statement": "The allocated tangent contains an entry for rows i and columns j exactly when points i and j coincide, are bonded, or have a common point whose neighborhood contains both.", "quantifier": "every neighborhood list", "why_tests_cant": "all meshes", "anchors": ["src/core/Peridigm.cpp: Peridigm::allocateJacobian"]}
{"id": "C49", "title": "Elastic constants are converted consistently", "statement": "From any two of bulk modulus, shear modulus, Young's modulus and Poisson's ratio describing one isotropic material, the code derives the same bulk and shear modulus; any other number of constants is rejected.", "quantifier": "every admissible material and every choice of two constants (exact arithmetic)", "why_tests_cant": "continuous inputs", "anchors": ["src/materials/Peridigm_Material.cpp: Material::calculateBulkModulus, Material::calculateShearModulus"]}
{"id": "C50", "title": "Horizon look-up honours block and default entries", "statement": "The horizon used at a point is the one given for its block if there is one, otherwise the default one; with neither the run stops.", "quantifier": "every list of block definitions and every block name", "why_tests_cant": "all input decks", "anchors": ["src/core/Peridigm_HorizonManager.cpp: HorizonManager::loadHorizonInformationFromBlockParameters, evaluateHorizon"]}
{"id": "C51", "title": "Influence functions are bounded, supported on the horizon and selectable", "statement": "The constant, parabolic-decay and Gaussian influence functions take values in [0,1] on bonds within the horizon, the parabolic-decay function is continuous and vanishes at and beyond the horizon, and forces use the influence function selected for the run.", "quantifier": "every bond length and horizon (exact arithmetic), every sequence of selections", "why_tests_cant": "continuous inputs, histories", "anchors": ["src/core/Peridigm_InfluenceFunction.cpp", "src/materials/material_utilities.cxx: scalarInfluenceFunction"]}
{"id": "C52", "title": "Block and node-set reductions report minimum, maximum and sum", "statement": "The block data and node set data outputs equal the minimum, maximum or sum of the variable over the points of the block or node set, independent of the distribution over processors.", "quantifier": "every data vector and distribution", "why_tests_cant": "all data and distributions", "anchors": ["src/compute/Peridigm_Compute_Block_Data.cpp: compute", "src/compute/Peridigm_Compute_Node_Set_Data.cpp: compute"]}
{"id": "C53", "title": "Nearest-point tracking selects the closest point", "statement": "The point tracked by the nearest point output is a point at minimal distance from the requested location, and among those the one with the smallest global id, independent of the distribution over blocks and processors.", "quantifier": "every point set, location and distribution", "why_tests_cant": "all point sets and distributions", "anchors": ["src/compute/Peridigm_Compute_Nearest_Point_Data.cpp: initialize"]}
{"id": "C54", "title": "Reported global momentum is the magnitude of the total momentum", "statement": "The global linear (angular) momentum output is the magnitude of the sum over all points of mass times velocity (moment of momentum), independent of the subdivision into blocks.", "quantifier": "every velocity field and block subdivision (exact arithmetic)", "why_tests_cant": "continuous inputs, all subdivisions", "anchors": ["src/compute/Peridigm_Compute_Linear_Momentum.cpp: compute", "src/compute/Peridigm_Compute_Angular_Momentum.cpp: compute"]}
{"id": "C55", "title": "Kinetic and strain energy outputs are non-negative and additive", "statement": "Reported kinetic and strain energies are non-negative, vanish for a body at rest in a rigidly moved reference configuration, and global values are the sum of the point values.", "quantifier": "every configuration and velocity field (exact arithmetic)", "why_tests_cant": "continuous inputs", "anchors": ["src/compute/Peridigm_Compute_Energy.cpp: compute", "src/compute/Peridigm_Compute_Kinetic_Energy.cpp: compute"]}
{"id": "C56", "title": "Critical time step is a positive lower bound over all points", "statement": "The estimated critical time step is positive and not larger than any point's own estimate, and does not depend on the distribution over processors.", "quantifier": "every mesh and distribution (exact arithmetic)", "why_tests_cant": "all meshes", "anchors": ["src/core/Peridigm_CriticalTimeStep.cpp: ComputeCriticalTimeStep"]}
{"id": "C57", "title": "Block names map to the numeric id they carry", "statement": "A block named with a textual prefix, an underscore and a number is assigned that number as its id.", "quantifier": "every prefix and number", "why_tests_cant": "all names", "anchors": ["src/io/discretization/Peridigm_Discretization.cpp: Discretization::blockNameToBlockId"]}
{"id": "C58", "title": "Loaded field data are interpolated between the bracketing times of the data file", "statement": "Data loaded from file for a requested time are the linear interpolation between the two bracketing times in the file; a time outside the file's range is rejected, every time it is requested.", "quantifier": "every list of increasing file times, every sequence of requests", "why_tests_cant": "history property", "anchors": ["src/core/Peridigm_DataLoader.cpp: DataLoader::loadData, DataLoader::loadDataFromFile"]}
{"id": "C59", "title": "Interface aperture output corresponds to the output time", "statement": "The interface aperture written at an output time is the change of length between the two elements adjacent to the interface at that time.", "quantifier": "every sequence of outputs", "why_tests_cant": "history property", "anchors": ["src/core/Peridigm_InterfaceData.cpp: InterfaceData::WriteExodusOutput"]}
{"id": "C60", "title": "Restart continues where the run stopped", "statement": "A run restarted from a restart directory with Initial Time equal to the stopped run's final time accepts the directory and restores the stored state.", "quantifier": "every final time and state", "why_tests_cant": "all times", "anchors": ["src/core/Peridigm.cpp: Peridigm::writeRestart, Peridigm::readRestart"]}
{"id": "C61", "title": "Initial damage model breaks exactly the bonds cut by its bond filters, for the whole run", "statement": "With the initial damage model a bond is broken, at both steps, exactly if one of the model's bond filters cuts the segment between its end points; the point damage is the fraction of broken bonds; nothing changes over any number of time steps.", "quantifier": "every mesh, set of filters and number of steps and evaluations", "why_tests_cant": "all meshes and filters; property of whole runs", "anchors": ["src/damage/Peridigm_InitialDamageModel.cpp: InitialDamageModel::initialize, InitialDamageModel::computeDamage"]}
{"id": "C62", "title": "Bonds broken by the interface-aware damage model stay broken", "statement": "A bond broken by the interface-aware damage model in some time step is broken in all later steps.", "quantifier": "every history of configurations", "why_tests_cant": "property of histories", "anchors": ["src/damage/Peridigm_InterfaceAwareDamageModel.cpp: InterfaceAwareDamageModel::computeDamage"]}
{"id": "C63", "title": "Contact acts between the blocks, and with the models, the input's interactions name", "statement": "Points of two blocks interact by contact exactly if the input defines an interaction for these blocks, and the force is computed with the contact model the interaction names.", "quantifier": "every list of contact models and interactions", "why_tests_cant": "all input decks", "anchors": ["src/core/Peridigm_ContactManager.cpp: ContactManager::initialize, ContactManager::evaluateContactForce"]}
{"id": "C64", "title": "Node sets hold exactly the listed nodes, and each processor uses its own part", "statement": "A node set given in the input or in a node file contains exactly the listed nodes; invalid lists and repeated names are refused; on each processor it is used for exactly those of its nodes that the processor owns, under the right local index.", "quantifier": "every node list, collection of node sets and distribution", "why_tests_cant": "all lists and distributions", "anchors": ["src/core/Peridigm_BoundaryAndInitialConditionManager.cpp: BoundaryAndInitialConditionManager::initializeNodeSets", "src/io/discretization/Peridigm_Discretization.cpp: Discretization node set handling"]}
{"id": "C65", "title": "Reactions are the internal forces of the constrained unknowns and zero elsewhere", "statement": "After reactions are computed the reaction vector equals the internal force in every constrained entry and is zero in all others.", "quantifier": "every set of conditions, force vector and distribution", "why_tests_cant": "all sets of conditions", "anchors": ["src/core/Peridigm_BoundaryAndInitialConditionManager.cpp: BoundaryAndInitialConditionManager::applyKinematicBC_ComputeReactions"]}
{"id": "C66", "title": "The assembled internal force of a body has no resultant force and moment", "statement": "However a body is divided into blocks and distributed over processors, and whichever of the modelled materials the blocks have, the internal force gathered from all blocks and processors has zero resultant and zero resultant moment.", "quantifier": "every division into blocks, distribution over processors, deformation, damage and material history (exact arithmetic)", "why_tests_cant": "continuous inputs, all decompositions", "anchors": ["src/core/Peridigm.cpp: Peridigm::executeExplicit (force assembly)", "src/core/Peridigm_ModelEvaluator.cpp: ModelEvaluator::evalModel", "src/materials"]}
{"id": "C67", "title": "Initial conditions set exactly the covered entries", "statement": "After the initial conditions are applied, each displacement, velocity, temperature or fluid pressure entry covered by conditions of its kind has the value of the last such condition at time zero, other entries are unchanged, and positions are reference positions plus displacements.", "quantifier": "every list of conditions, node sets, functions and distribution", "why_tests_cant": "all lists of conditions and functions", "anchors": ["src/core/Peridigm_BoundaryAndInitialConditionManager.cpp: BoundaryAndInitialConditionManager::applyInitialConditions", "src/core/Peridigm_BoundaryCondition.cpp: DirichletBC::apply"]}
{"id": "C68", "title": "Prescribed temperatures are met, and temperature changes count from time zero", "statement": "When boundary conditions are applied at time t, a node with a prescribed temperature T has temperature T(t) and, when time advances, temperature change T(t)-T(0).", "quantifier": "every temperature function, time and set of conditions", "why_tests_cant": "all functions of time", "anchors": ["src/core/Peridigm_BoundaryCondition.cpp: DirichletBC::apply, DirichletIncrementBC::apply"]}
{"id": "C69", "title": "A thermal flux condition imposes the given flux", "statement": "A thermal flux boundary condition has an effect determined by the flux its function prescribes.", "quantifier": "every flux function", "why_tests_cant": "all functions", "anchors": ["src/core/Peridigm_BoundaryCondition.cpp: NeumannBC::apply", "src/core/Peridigm_BoundaryAndInitialConditionManager.cpp: BoundaryAndInitialConditionManager::initialize"]}
{"id": "C70", "title": "Quasi-static prescribed displacements follow the prescribed function", "statement": "At the end of every completed quasi-static load step the displacement of a node with a prescribed displacement condition equals the prescribed function at that time, also when attempts fail and load steps are cut.", "quantifier": "every prescribed function, schedule of load steps, solver behaviour and pattern of convergence failures", "why_tests_cant": "all functions and all failure patterns", "anchors": ["src/core/Peridigm.cpp: Peridigm::executeQuasiStatic", "src/core/Peridigm_BoundaryCondition.cpp: DirichletIncrementBC::apply", "src/core/Peridigm_BoundaryAndInitialConditionManager.cpp: applyKinematicBC_InsertZeros"]}
{"id": "C71", "title": "A rebuilt preconditioner is the inverse of the tangent blocks", "statement": "Whenever the block-diagonal preconditioner of the nonlinear solver is rebuilt, each of its 3x3 blocks is the inverse of the corresponding block of the tangent; a singular block stops the run.", "quantifier": "every tangent, maximum age, Jacobian update interval and sequence of calls (exact arithmetic)", "why_tests_cant": "continuous inputs and history", "anchors": ["src/core/Peridigm.cpp: Peridigm::computePreconditioner, Peridigm::evaluateNOX", "src/materials/correspondence.cxx: Invert3by3Matrix"]}
{"id": "C72", "title": "The residual given to the nonlinear solver vanishes exactly in equilibrium", "statement": "The residual returned to NOX at a trial solution is zero at a free component of a node exactly if internal force and applied body force balance there, and zero at every prescribed component.", "quantifier": "every trial solution, set of conditions, body force and division into blocks (exact arithmetic)", "why_tests_cant": "continuous inputs, all configurations", "anchors": ["src/core/Peridigm.cpp: Peridigm::evaluateNOX"]}
{"id": "C73", "title": "Load steps with NOX follow prescribed displacements and keep the kinematic fields consistent", "statement": "In a quasi-static analysis with NOX, at the end of every load step a component with a prescribed displacement has the prescribed value, velocities are displacement increments over the length of the step, and positions are reference positions plus displacements.", "quantifier": "every prescribed function, list of load steps and behaviour of the solver", "why_tests_cant": "all functions and solver behaviours", "anchors": ["src/core/Peridigm.cpp: Peridigm::executeNOXQuasiStatic, Peridigm::evaluateNOX"]}
{"id": "C74", "title": "The deformation gradient of a correspondence material is exact for affine motion", "statement": "Where the neighbors of a point have moved according to one matrix, the deformation gradient computed for the point is that matrix, whatever the influence function, volumes and arrangement of neighbors; a point whose neighbors do not determine a gradient, in particular one with fewer than three, stops the run with an error.", "quantifier": "every neighborhood, influence function, volume, damage and affine motion (exact arithmetic)", "why_tests_cant": "continuous inputs, all arrangements of points", "anchors": ["src/materials/correspondence.cxx: computeShapeTensorInverseAndApproximateDeformationGradient", "src/materials/Peridigm_CorrespondenceMaterial.cpp: CorrespondenceMaterial::computeForce"]}
{"id": "C75", "title": "Hourglass forces vanish under affine motion", "statement": "If the neighbors of every point have moved according to one matrix, which may differ from point to point, the stabilisation adds no force.", "quantifier": "every hourglass coefficient, bulk modulus and neighborhood (exact arithmetic)", "why_tests_cant": "continuous inputs", "anchors": ["src/materials/correspondence.cxx: computeHourglassForce"]}
{"id": "C76", "title": "Correspondence forces have no resultant", "statement": "The volume-weighted sum of the internal forces of a correspondence material, hourglass forces included, is zero whatever the stress update returns.", "quantifier": "every deformation, velocity, history, stress update and neighborhood (exact arithmetic)", "why_tests_cant": "continuous inputs, any constitutive model", "anchors": ["src/materials/Peridigm_CorrespondenceMaterial.cpp: CorrespondenceMaterial::computeForce", "src/materials/correspondence.cxx: computeHourglassForce"]}
{"id": "C77", "title": "Correspondence forces have no moment for symmetric stresses", "statement": "With symmetric stresses and one influence function, the resultant moment of the internal forces of a correspondence material, hourglass forces included, is zero.", "quantifier": "every deformation, velocity, history and neighborhood (exact arithmetic)", "why_tests_cant": "continuous inputs", "anchors": ["src/materials/Peridigm_CorrespondenceMaterial.cpp: CorrespondenceMaterial::computeForce"]}
{"id": "C78", "title": "The partial stress of a correspondence material is its Piola stress", "statement": "The partial stress written for a point is the first Piola-Kirchhoff stress: times the transposed deformation gradient it is the Jacobian determinant times the Cauchy stress.", "quantifier": "every deformation and neighborhood (exact arithmetic)", "why_tests_cant": "continuous inputs", "anchors": ["src/materials/Peridigm_CorrespondenceMaterial.cpp: CorrespondenceMaterial::computeForce"]}
{"id": "C79", "title": "The rotation tensor of a correspondence material stays a rotation", "statement": "If the rotation tensor of a point is orthogonal before an evaluation of the force it is orthogonal after it.", "quantifier": "every velocity gradient, left stretch and time step (exact arithmetic)", "why_tests_cant": "continuous inputs and history", "anchors": ["src/materials/correspondence.cxx: computeUnrotatedRateOfDeformationAndRotationTensor"]}
{"id": "C80", "title": "Rigid motion causes no stress in correspondence materials", "statement": "The rate of deformation handed to the stress update is the symmetric part of the velocity gradient of the neighbors in the unrotated configuration; it is zero if the body moves rigidly, and the unrotated stress of the elastic material then does not change.", "quantifier": "every configuration and rigid velocity field (exact arithmetic)", "why_tests_cant": "continuous inputs", "anchors": ["src/materials/correspondence.cxx: computeUnrotatedRateOfDeformationAndRotationTensor", "src/materials/elastic_correspondence.cxx: updateElasticCauchyStress"]}
{"id": "C81", "title": "The elastic correspondence stress is Hooke's law of the accumulated strain", "statement": "Over any sequence of steps the stress of the elastic correspondence material changes by Hooke's law applied to the accumulated strain less the thermal strain, independent of the path; symmetric stresses stay symmetric.", "quantifier": "every history of rates, step sizes and temperatures (exact arithmetic)", "why_tests_cant": "unbounded histories, continuous inputs", "anchors": ["src/materials/elastic_correspondence.cxx: updateElasticCauchyStress"]}
{"id": "C82", "title": "Perfect plasticity keeps the stress within the yield surface", "statement": "After every step of the perfectly plastic correspondence material the von Mises stress is at most the yield stress and is the one recorded, the pressure is elastic, the deviatoric stress is a multiple of the elastic one, steps that stay below yield are elastic, and the equivalent plastic strain never decreases.", "quantifier": "every history of rates and step sizes (exact arithmetic)", "why_tests_cant": "unbounded histories, continuous inputs", "anchors": ["src/materials/elastic_plastic_correspondence.cxx: updateElasticPerfectlyPlasticCauchyStress"]}
{"id": "C83", "title": "The equivalent plastic strain measures the plastic strain", "statement": "In every step of the perfectly plastic correspondence material the equivalent plastic strain grows by sqrt(2/3) times the magnitude of the plastic strain increment.", "quantifier": "every rate, stress and step size (exact arithmetic)", "why_tests_cant": "continuous inputs", "anchors": ["src/materials/elastic_plastic_correspondence.cxx: updateElasticPerfectlyPlasticCauchyStress"]}
{"id": "C84", "title": "Isotropic hardening keeps the stress within the hardened yield surface", "statement": "After every plastic step of the linearly hardening correspondence material the von Mises stress is at most the yield stress plus hardening modulus times the recorded equivalent plastic strain; a flaw reduces the yield stress to a value between zero and the given one.", "quantifier": "every rate, stress, plastic strain, hardening modulus and flaw (exact arithmetic)", "why_tests_cant": "continuous inputs", "anchors": ["src/materials/isotropic_hardening_correspondence.cxx: updateElasticIsotropicHardeningPlasticCauchyStress"]}
{"id": "C85", "title": "The blocks of the analysis are the blocks of the mesh", "statement": "After the blocks of an input have been accepted, the blocks of the analysis are in one-to-one correspondence with those of the mesh, each with the number its name carries as id and with the parameters of the definition that names it, or of the default definition if none does.", "quantifier": "every list of mesh blocks and block definitions", "why_tests_cant": "unbounded inputs", "anchors": ["src/core/Peridigm.cpp: Peridigm::initializeBlocks"]}
{"id": "C86", "title": "The left stretch stays symmetric and follows the velocity gradient", "statement": "In one evaluation of a correspondence force the left stretch V of a point advances with rate G V - V W, where G is the velocity gradient of its neighbors and W a skew tensor such that V stays symmetric; under rigid motion an unstretched point stays unstretched.", "quantifier": "every velocity field, stretch and time step (exact arithmetic)", "why_tests_cant": "continuous inputs and history", "anchors": ["src/materials/correspondence.cxx: computeUnrotatedRateOfDeformationAndRotationTensor"]}
{"id": "C87", "title": "A finite-difference tangent can always be assembled", "statement": "If the material can be evaluated in every neighborhood with one point displaced by the probe length in either direction, assembling the finite-difference tangent into the matrix allocated for the mesh neither terminates nor overruns an array nor uses an entry of the scratch matrix that was not computed for this neighborhood, in a mechanical and in a thermal analysis.", "quantifier": "every mesh, distribution over processors, material, state and content of the scratch matrix", "why_tests_cant": "all meshes and materials; leftovers of earlier neighborhoods", "anchors": ["src/materials/Peridigm_Material.cpp: Material::computeFiniteDifferenceJacobian", "src/core/Peridigm_SerialMatrix.cpp: SerialMatrix::addValues", "src/core/Peridigm.cpp: Peridigm::allocateJacobian"]}
{"id": "C88", "title": "The finite-difference tangent is the central difference of the assembled force", "statement": "An entry of the finite-difference tangent equals the volume of the row's point times the central difference quotient of the total force density on that point with respect to the column's displacement (with the velocity that goes with it within the time step); likewise for flux divergence and temperature. A block-diagonal tangent has the same entries within the blocks of a point and none elsewhere.", "quantifier": "every mesh, distribution over processors, material and state (exact arithmetic)", "why_tests_cant": "all meshes, materials and states", "anchors": ["src/materials/Peridigm_Material.cpp: Material::computeFiniteDifferenceJacobian", "src/core/Peridigm_SerialMatrix.cpp"]}
{"id": "C89", "title": "The matrix of implicit dynamics is the derivative of its residual", "statement": "The matrix of the linear problem solved in a Newton iteration of implicit dynamics is the difference quotient of the residual that the iteration reduces to zero.", "quantifier": "every mesh, state, material without dependence on velocity, and set of volumes (exact arithmetic)", "why_tests_cant": "all meshes and volumes; a wrong matrix only slows convergence", "anchors": ["src/core/Peridigm.cpp: Peridigm::computeImplicitJacobian", "src/core/Peridigm.cpp: Peridigm::executeImplicit"]}
{"id": "C90", "title": "Every material can produce a block-diagonal tangent", "statement": "If a block-diagonal tangent is requested (for a preconditioner), a material with a finite-difference tangent fills it and does not terminate.", "quantifier": "every mesh, distribution over processors and material", "why_tests_cant": "all meshes and materials", "anchors": ["src/materials/Peridigm_Material.cpp", "src/materials/Peridigm_ElasticPlasticMaterial.cpp: ElasticPlasticMaterial::computeJacobian", "src/core/Peridigm_SerialMatrix.cpp: SerialMatrix::addBlockDiagonalValues"]}
{"id": "C91", "title": "Finite-difference tangents work for coupled unknowns", "statement": "With displacements and temperatures both unknown, the finite-difference tangent is computed without accessing memory outside the arrays.", "quantifier": "every neighborhood and material", "why_tests_cant": "undefined behaviour that need not show in a run", "anchors": ["src/materials/Peridigm_Material.cpp: Material::computeFiniteDifferenceJacobian"]}
{"id": "C92", "title": "A warning about ties is printed exactly if several points are nearest", "statement": "When the nearest point is looked for, the warning about multiple nearest points is printed if and only if more than one point is at the minimal distance from the location asked for.", "quantifier": "every point set, location and distribution over blocks and processors", "why_tests_cant": "all point sets and distributions", "anchors": ["src/compute/Peridigm_Compute_Nearest_Point_Data.cpp: Compute_Nearest_Point_Data::initialize"]}
{"id": "C93", "title": "Momentum vectors reported for points", "statement": "The linear momentum reported for a point is its mass times its velocity, and the angular momentum reported for a point is its moment of momentum about the origin, position cross momentum.", "quantifier": "every state (exact arithmetic)", "why_tests_cant": "continuous inputs; the existing tests look at the global magnitude only", "anchors": ["src/compute/Peridigm_Compute_Linear_Momentum.cpp: Compute_Linear_Momentum::computeLinearMomentum", "src/compute/Peridigm_Compute_Angular_Momentum.cpp: Compute_Angular_Momentum::computeAngularMomentum"]}
{"id": "C94", "title": "Interfaces are the pairs of neighbouring elements with a common face", "statement": "The interfaces constructed from a mesh are the pairs of elements that are neighbours and have a face in common, each pair once, and the nodes recorded for an interface are the nodes of that face.", "quantifier": "every mesh of hexahedra or tetrahedra and every neighbourhood", "why_tests_cant": "all meshes", "anchors": ["src/io/discretization/Peridigm_ExodusDiscretization.cpp: ExodusDiscretization::constructInterfaceData"]}
{"id": "C95", "title": "Restart directories written before are kept", "statement": "Each solver of an analysis writes its restart data into a directory that did not exist before; the content of the restart directories already there does not change.", "quantifier": "every set of restart directories and every sequence of solvers", "why_tests_cant": "all histories of analyses in a directory", "anchors": ["src/core/Peridigm.cpp: Peridigm::InitializeRestart, Peridigm::writeRestart, firstNumbersSring"]}
{"id": "C96", "title": "An explicit analysis that is stopped and restarted gives the same result", "statement": "If an explicit analysis is stopped at a time between its initial and final time and continued by a restart from that time, displacements, velocities, positions and accelerations at the final time are those of the analysis that was not stopped.", "quantifier": "every stop time, number of steps, load and force evaluation (exact arithmetic)", "why_tests_cant": "all executions and stop times", "anchors": ["src/core/Peridigm.cpp: Peridigm::executeExplicit, Peridigm::writeRestart, Peridigm::readRestart"]}
{"id": "C97", "title": "The elastic internal force is the negative gradient of the stored energy", "statement": "For the elastic material, the rate of change of the sum of the stored energies reported for the points, along any displacement of the points, is minus the power of the computed internal forces (force density times volume).", "quantifier": "every discretisation, configuration, damage state and direction of displacement (exact arithmetic)", "why_tests_cant": "all configurations and directions", "anchors": ["src/materials/Peridigm_ElasticMaterial.cpp: ElasticMaterial::computeForce, ElasticMaterial::computeStoredElasticEnergyDensity", "src/compute/Peridigm_Compute_Stored_Elastic_Energy.cpp: Compute_Stored_Elastic_Energy::compute"]}
{"id": "C98", "title": "The stored elastic energy is non-negative and zero only for undeformed bonds", "statement": "The stored elastic energy reported for a point is never negative; the total is zero if and only if the bonds that carry force have their reference lengths; it does not change under a rigid motion of the deformed body.", "quantifier": "every discretisation, configuration and damage state (exact arithmetic)", "why_tests_cant": "all configurations", "anchors": ["src/materials/Peridigm_ElasticMaterial.cpp: ElasticMaterial::computeStoredElasticEnergyDensity", "src/compute/Peridigm_Compute_Stored_Elastic_Energy.cpp: Compute_Stored_Elastic_Energy::compute"]}
{"id": "C99", "title": "The acceleration in the output is the acceleration of the points", "statement": "The field Acceleration written by an explicit analysis is the acceleration with which the time integrator moves the points.", "quantifier": "every state, force and external force", "why_tests_cant": "all loads and states", "anchors": ["src/compute/Peridigm_Compute_Acceleration.cpp: Compute_Acceleration::compute", "src/core/Peridigm.cpp: Peridigm::executeExplicit"]}
{"id": "C100", "title": "Forces, neighborhood volumes and numbers of neighbors in the output", "statement": "The field Force of a point is its force density times its volume, Neighborhood_Volume is the volume of the point and of its neighbours (the partial ones, if there are), Number_Of_Neighbors is the number of its neighbours.", "quantifier": "every discretisation and every block", "why_tests_cant": "all neighbourhood lists", "anchors": ["src/compute/Peridigm_Compute_Force.cpp: Compute_Force::compute", "src/compute/Peridigm_Compute_Neighborhood_Volume.cpp: Compute_Neighborhood_Volume::initialize", "src/compute/Peridigm_Compute_Number_Of_Neighbors.cpp: Compute_Number_Of_Neighbors::initialize"]}
{"id": "C101", "title": "The steps requested are written to the output file", "statement": "With output frequency f, initial output step i and final output step j, the configurations written are those of the steps between i and j that are multiples of f (step 0 is the initial configuration), numbered consecutively and with their times.", "quantifier": "every frequency, initial and final output step and every number of steps", "why_tests_cant": "all schedules", "anchors": ["src/io/Peridigm_OutputManager_ExodusII.cpp: OutputManager_ExodusII::write"]}
{"id": "C102", "title": "The output frequency applies to the steps of each solver", "statement": "In an analysis with several solvers, the initial configuration and every f-th step of each solver are written.", "quantifier": "every frequency, number of solvers and number of steps", "why_tests_cant": "all sequences of solvers", "anchors": ["src/io/Peridigm_OutputManager_ExodusII.cpp: OutputManager_ExodusII::write", "src/core/Peridigm.cpp: Peridigm::executeSolvers, Peridigm::executeExplicit"]}
{"id": "C103", "title": "Diffusion conserves heat", "statement": "The flux divergences computed by the diffusion material, weighted by the cell volumes, sum to zero: heat that leaves some points enters others.", "quantifier": "every discretisation, temperature field, set of coefficients and quadrature weights (exact arithmetic)", "why_tests_cant": "all temperature fields and neighbourhoods", "anchors": ["src/materials/Peridigm_DiffusionMaterial.cpp: DiffusionMaterial::computeFluxDivergence"]}
{"id": "C104", "title": "Heat flows from hot to cold", "statement": "A point with the temperature of its neighbours neither gains nor loses heat; one at least as hot as all of them gains none and loses some if one is colder, and conversely; the computation yields a result or terminates, the latter exactly if a horizon or a distance is zero.", "quantifier": "every discretisation, temperature field and set of positive coefficients (exact arithmetic)", "why_tests_cant": "all temperature fields and neighbourhoods", "anchors": ["src/materials/Peridigm_DiffusionMaterial.cpp: DiffusionMaterial::computeFluxDivergence"]}
{"id": "C105", "title": "Steady temperatures are unique and lie between the prescribed ones", "statement": "A temperature field whose flux divergence is zero wherever the temperature is not prescribed lies between the smallest and the largest prescribed temperature, and is determined by the prescribed temperatures, if each point is joined by bonds to a prescribed one.", "quantifier": "every discretisation, set of prescribed points and temperature field (exact arithmetic)", "why_tests_cant": "a statement on all solutions", "anchors": ["src/materials/Peridigm_DiffusionMaterial.cpp: DiffusionMaterial::computeFluxDivergence", "src/core/Peridigm.cpp: Peridigm::executeImplicitDiffusion"]}
{"id": "C106", "title": "Pore fluid is conserved and flows from high to low pressure", "statement": "The fluid flows computed by the multiphysics material, weighted by volume, sum to zero; there is no flow without pressure differences; a point of highest pressure gains no fluid.", "quantifier": "every discretisation, configuration, damage state, pressure and temperature (exact arithmetic)", "why_tests_cant": "all pressures and neighbourhoods", "anchors": ["src/materials/nonlocal_diffusion.cxx: computeInternalFluidFlow", "src/materials/Peridigm_MultiphysicsElasticMaterial.cpp: MultiphysicsElasticMaterial::computeForce"]}
{"id": "C107", "title": "Damage makes the solid more permeable", "statement": "If bonds are damaged further, with everything else unchanged, the fluid flow into a point of lowest pressure does not decrease, as long as the permeability is below its maximum.", "quantifier": "every discretisation, pressure, permeability curve and pair of damage states (exact arithmetic)", "why_tests_cant": "all damage states and permeability curves", "anchors": ["src/materials/nonlocal_diffusion.cxx: computeInternalFluidFlow"]}
{"id": "C108", "title": "Pore pressure acts as an internal pressure", "statement": "The forces of the multiphysics material have no resultant force or moment; without pore pressure they are those of the elastic material; in an undeformed undamaged body their virial is three times the sum of pressure times volume.", "quantifier": "every discretisation, configuration and pressure (exact arithmetic)", "why_tests_cant": "all configurations", "anchors": ["src/materials/nonlocal_diffusion.cxx: computeInternalForceLinearElasticCoupled", "src/materials/Peridigm_MultiphysicsElasticMaterial.cpp: MultiphysicsElasticMaterial::computeForce"]}
{"id": "C109", "title": "The vector Poisson material solves three diffusion problems", "statement": "Its forces sum to zero, their work on the displacement is never positive and zero only if bonded points have the same displacement, and each component is the flux divergence of the diffusion material for that component of the displacement.", "quantifier": "every discretisation and displacement (exact arithmetic)", "why_tests_cant": "all displacements and neighbourhoods", "anchors": ["src/materials/Peridigm_VectorPoissonMaterial.cpp: VectorPoissonMaterial::computeForce"]}
{"id": "C110", "title": "Implicit diffusion writes balanced temperatures", "statement": "The load steps written are the requested times in order, all of them unless one is not accepted; in each of them prescribed nodes have their prescribed temperature, the flux divergence at the temperatures written vanishes elsewhere up to the tolerance (a relative one: relative to the heat supplied at prescribed nodes) or below a hundred times it, and the body has not moved; the same temperatures are prescribed in the output before the first load step.", "quantifier": "every mesh, set of conditions, list of times, material and linear solver, including failing ones (exact arithmetic)", "why_tests_cant": "all histories of load steps and all solver behaviours", "anchors": ["src/core/Peridigm.cpp: Peridigm::executeImplicitDiffusion", "src/core/Peridigm.cpp: Peridigm::computeQuasiStaticResidual"]}
{"id": "C111", "title": "Implicit diffusion adds each entry of the increment to its own unknown", "statement": "After a linear solve in an implicit diffusion analysis, the temperature of a node changes by the entry of the solution that belongs to its temperature.", "quantifier": "every mesh, choice of unknowns, set of conditions and solution of the linear system (exact arithmetic)", "why_tests_cant": "all choices of unknowns and solutions", "anchors": ["src/core/Peridigm.cpp: Peridigm::executeImplicitDiffusion"]}
{"id": "C112", "title": "Implicit diffusion needs one increment and reaches the steady state", "statement": "If the linear solver is exact, every load step of an implicit diffusion analysis with diffusion materials is completed after at most one increment; with tolerance zero the temperatures written are the steady field of the prescribed temperatures, whatever the earlier load steps, and lie between them.", "quantifier": "every mesh, set of prescribed temperatures, list of times and positive coefficients (exact arithmetic)", "why_tests_cant": "all meshes and histories of load steps", "anchors": ["src/core/Peridigm.cpp: Peridigm::executeImplicitDiffusion", "src/materials/Peridigm_DiffusionMaterial.cpp: DiffusionMaterial::computeFluxDivergence"]}
{"id": "C113", "title": "A generated box contains every cell once, in the right place", "statement": "The data generated for the processors describe together every cell of the box exactly once, in the order of the global ids, each with the middle of its cell as position and its share of the volume; the volumes add up to the volume of the box, and every processor receives its data.", "quantifier": "every box, number of cells, horizon and number of processors (exact arithmetic)", "why_tests_cant": "all sizes and numbers of processors: the cursor is handed from processor to processor in the middle of rows and planes", "anchors": ["src/io/mesh_input/quick_grid/QuickGrid.cxx: TensorProduct3DMeshGenerator::computePdGridData", "src/io/mesh_input/quick_grid/QuickGrid.cxx: getDiscretization"]}
{"id": "C114", "title": "The neighbors in a generated box are the points within the horizon", "statement": "In the mesh of a generated box the neighborhood list of a point contains every other point nearer than the horizon exactly once and nothing else; bonds come in pairs.", "quantifier": "every box, number of cells, horizon and number of processors (exact arithmetic)", "why_tests_cant": "all ratios of horizon to cell sizes and all positions relative to the boundary", "anchors": ["src/io/mesh_input/quick_grid/QuickGrid.cxx: TensorProduct3DMeshGenerator::computePdGridData", "src/io/mesh_input/quick_grid/QuickGrid.cxx: Spec1D::getCellNeighborhoodSize", "src/io/discretization/Peridigm_PdQuickGridDiscretization.cpp: PdQuickGridDiscretization::getDiscretization"]}
{"id": "C115", "title": "Generated meshes stay within the memory reserved for them", "statement": "While a box or cylinder is generated, no processor writes more neighborhood entries, ids, positions or volumes than were reserved for it, and the coordinates of neighbors are read within their arrays.", "quantifier": "every box and cylinder, horizon, neighborhood type and number of processors", "why_tests_cant": "all sizes; the size of the list is computed by a different loop than the one that fills it", "anchors": ["src/io/mesh_input/quick_grid/QuickGrid.cxx: TensorProduct3DMeshGenerator::getSizeNeighborList", "src/io/mesh_input/quick_grid/QuickGrid.cxx: TensorProductCylinderMeshGenerator::computePdGridData"]}
{"id": "C116", "title": "A generated cylinder contains every cell once, in the right place", "statement": "The data generated for the processors describe together every cell of the hollow cylinder about the given center exactly once; the volumes add up to the volume of the cylinder and all points lie between its surfaces.", "quantifier": "every pair of radii, center, number of rings, length and number of processors (exact arithmetic)", "why_tests_cant": "all sizes and numbers of processors", "anchors": ["src/io/mesh_input/quick_grid/QuickGrid.cxx: TensorProductCylinderMeshGenerator::computePdGridData", "src/io/mesh_input/quick_grid/QuickGrid.cxx: SpecRing2D::SpecRing2D"]}
{"id": "C117", "title": "The neighbors in a generated cylinder are the points within the horizon", "statement": "In the mesh of a generated cylinder the neighborhood list of a point contains every other point nearer than the horizon exactly once and nothing else; bonds come in pairs.", "quantifier": "every cylinder, horizon and number of processors (exact arithmetic)", "why_tests_cant": "all ratios of horizon to radius and cell size", "anchors": ["src/io/mesh_input/quick_grid/QuickGrid.cxx: TensorProductCylinderMeshGenerator::computePdGridData", "src/io/mesh_input/quick_grid/QuickGrid.h: RingHorizon::RingHorizonIterator"]}
{"id": "C118", "title": "Element volumes and centroids are exact", "statement": "The volume computed for a tetrahedron or hexahedron is its volume - for a hexahedron with warped faces the integral of its trilinear map's Jacobian, so that neighbors leave no gaps; the centroid lies within the nodes, follows the element when it is moved, turned or stretched, and inverted elements are refused.", "quantifier": "all node positions (exact arithmetic)", "why_tests_cant": "all shapes of elements: the volume is put together from 24 tetrahedra with hand-written node numbers", "anchors": ["src/io/discretization/Peridigm_GeometryUtils.cpp: tetCentroidAndVolume", "src/io/discretization/Peridigm_GeometryUtils.cpp: hexCentroidAndVolume", "src/io/discretization/Peridigm_GeometryUtils.cpp: hexVolume"]}
{"id": "C119", "title": "Triangles are classified correctly against a sphere", "statement": "A triangle is reported to be inside a sphere if and only if all its points are, outside only if none is, and intersecting only if it has points on both sides.", "quantifier": "all node positions, centers and radii (exact arithmetic)", "why_tests_cant": "all relative positions; the separating axes have to be enough for every triangle", "anchors": ["src/io/discretization/Peridigm_GeometryUtils.cpp: triangleSphereIntersection"]}
{"id": "C120", "title": "Elements are classified correctly against a sphere", "statement": "A tetrahedron or hexahedron is reported to be inside a sphere if and only if all its points are, outside only if none of its points is in the sphere, and intersecting only if it has points on both sides.", "quantifier": "all node positions, centers and radii (exact arithmetic)", "why_tests_cant": "all relative positions, including spheres within the element", "anchors": ["src/io/discretization/Peridigm_GeometryUtils.cpp: tetrahedronSphereIntersection", "src/io/discretization/Peridigm_GeometryUtils.cpp: hexahedronSphereIntersection"]}
{"id": "C121", "title": "The proximity search delivers all neighbors to the processor that asks", "statement": "ProximitySearch::GlobalProximitySearch gives every point of the caller's decomposition exactly the other points within its search radius plus the addition that no bond filter cuts off, each once, whatever decomposition is used inside; the caller's decomposition and order are kept and the overlap map lists the owned points first.", "quantifier": "all point sets, decompositions, choices of the partitioner, radii and filters (exact arithmetic)", "why_tests_cant": "all decompositions: the points are moved to a balanced decomposition, searched there and moved back", "anchors": ["src/core/Peridigm_ProximitySearch.cpp: GlobalProximitySearch", "src/io/discretization/Peridigm_GeometryUtils.cpp"]}
{"id": "C122", "title": "Every element of an Exodus mesh becomes one point", "statement": "Reading an Exodus file gives one point for each element, with the element's centroid, volume, block and id (the file's own numbering or its original_global_id_map, counted from zero); duplicate block names and unknown element types are refused.", "quantifier": "all files (exact arithmetic)", "why_tests_cant": "all meshes, numberings and mixtures of element types", "anchors": ["src/io/discretization/Peridigm_ExodusDiscretization.cpp: loadData"]}
{"id": "C123", "title": "Node sets of the mesh become sets of points", "statement": "A node set of an Exodus file becomes the set of exactly those points whose element has a node in it, each once, under the same name; duplicate names are refused.", "quantifier": "all files and node sets", "why_tests_cant": "all connectivities: the set is collected through a table from nodes to elements", "anchors": ["src/io/discretization/Peridigm_ExodusDiscretization.cpp: loadData"]}
{"id": "C124", "title": "Element-horizon intersections decide the neighborhoods", "statement": "With 'Compute Element-Horizon Intersections' the neighbors of a point are exactly the elements that meet its horizon, also if their centroids are outside it; without the option the neighborhoods are those of the search.", "quantifier": "all meshes of hexahedra, horizons and decompositions (exact arithmetic)", "why_tests_cant": "all meshes; the search radius has to be expanded by enough for every element on every processor", "anchors": ["src/io/discretization/Peridigm_ExodusDiscretization.cpp: createNeighborhoodData, removeNonintersectingNeighborsFromNeighborList", "src/io/discretization/Peridigm_ExodusDiscretization.cpp: computeMaxElementDimension"]}
{"id": "C125", "title": "Bonds between blocks can be omitted", "statement": "With 'Omit Bonds Between Blocks' set to All exactly the bonds between points of different blocks are removed and pointers and lists stay consistent; with None nothing changes; other values are refused.", "quantifier": "all meshes, block ids and neighborhoods", "why_tests_cant": "all block numberings: the code indexes a matrix by block id", "anchors": ["src/io/discretization/Peridigm_ExodusDiscretization.cpp: filterBonds", "src/io/discretization/Peridigm_TextFileDiscretization.cpp: filterBonds"]}
{"id": "C126", "title": "A text mesh is read line by line", "statement": "Every line of a text mesh that is neither empty nor a comment gives one point with its coordinates, block and volume, numbered in the order of the file; lines with another number of entries, missing and empty files end the program.", "quantifier": "all texts and all ways in which the library reads numbers", "why_tests_cant": "all texts, blanks and comments", "anchors": ["src/io/discretization/Peridigm_TextFileDiscretization.cpp: getDecomp", "src/core/Peridigm_Enums.cpp: trim"]}
{"id": "C127", "title": "Points of a text mesh end up in their blocks", "statement": "On every processor each block of a text mesh has an entry, which lists exactly the processor's points of that block.", "quantifier": "all block ids and decompositions", "why_tests_cant": "all integers as block ids: names are made from an int in one place and from a double in another", "anchors": ["src/io/discretization/Peridigm_TextFileDiscretization.cpp: getDecomp"]}
{"id": "C128", "title": "Load balancing keeps every point with its data", "statement": "After getLoadBalancedDiscretization every point is on exactly one processor, with the coordinates, the volume, the id and the neighborhood it had before, whatever the partitioner decides; the sizes and pointers of the neighborhood lists are consistent.", "quantifier": "all grids, numbers of processors and export lists of the partitioner", "why_tests_cant": "all partitions: packing, shifting of the points that stay and unpacking of those that arrive are driven by the partitioner's lists", "anchors": ["src/io/pdneigh/PdZoltan.cxx: getLoadBalancedDiscretization", "src/io/mesh_input/quick_grid/QuickGrid.cxx"]}
{"id": "C129", "title": "The hardening plastic material keeps the hardened yield condition", "statement": "After every step of the elastic-plastic material with isotropic hardening, half the squared norm of the deviatoric force state of each point is at most its yield value plus the hardening modulus times its plastic multiplier; the multiplier never decreases, increases only if the trial state exceeds that value, and then the state is on the yield surface and the plastic extensions follow the flow rule. A step always has a result.", "quantifier": "all configurations, damage states and histories, for a positive hardening modulus (exact arithmetic)", "why_tests_cant": "the increment is the root of a cubic, computed by two formulas and a selection among roots; a test meets only some of the cases", "anchors": ["src/materials/elastic_plastic_hardening.cxx: computeInternalForceIsotropicHardeningPlastic, updateDeltaLambda"]}
{"id": "C130", "title": "The forces of the hardening plastic material are balanced and objective", "statement": "The internal forces of the elastic-plastic material with isotropic hardening sum to zero, have no total moment, vanish at points with broken bonds only, and rotate with the body; the plastic variables do not notice a rigid motion.", "quantifier": "all configurations, neighborhoods, damage states and plastic variables (exact arithmetic)", "why_tests_cant": "all configurations and histories", "anchors": ["src/materials/elastic_plastic_hardening.cxx: computeInternalForceIsotropicHardeningPlastic", "src/materials/Peridigm_ElasticPlasticHardeningMaterial.cpp: computeForce"]}
{"id": "C131", "title": "The interface-aware damage model breaks a bond at the smaller critical stretch of its two ends", "statement": "With the interface-aware damage model, an evaluation that takes no point out as rank deficient breaks a whole bond exactly if its stretch exceeds the smaller of the critical stretches of the blocks of its two end points, whichever block and processor own them, unless the neighbor's critical stretch is zero, in which case the bond never breaks. An analysis in which only some blocks use the model is refused.", "quantifier": "all blocks, distributions over processors, neighborhoods, deformations and critical stretches (exact arithmetic)", "why_tests_cant": "whether a bond breaks depends on which block and which processor own its ends; a test sees a few distributions", "anchors": ["src/damage/Peridigm_InterfaceAwareDamageModel.cpp: initialize, computeDamage", "src/core/Peridigm.cpp: Peridigm::Peridigm", "src/core/Peridigm_Block.cpp: checkFieldValidity, synchronize"]}
{"id": "C132", "title": "The PALS material reproduces classical dilatation and energy at every point, also near the surface", "statement": "Once the position-aware linear solid is set up, a small uniform strain gives each point the dilatation of the classical theory (the trace of the strain) at first order, and each of the six matching strains gives it the classical energy density at second order, wherever its neighbors lie, provided its bonds see the strains in question. Set-up succeeds if the bonds determine the multipliers; a single point without neighbors makes it fail with an exception.", "quantifier": "all meshes, volumes, influence functions, moduli and strains (exact arithmetic)", "why_tests_cant": "the multipliers come from two linear problems per point that depend on the whole neighborhood, with a repair for strains that are not seen", "anchors": ["src/materials/pals.cxx: compute_lagrange_multipliers, compute_lagrange_multipliers_point, computeDilatationAndPalsPressure", "src/materials/Peridigm_Pals_Model.cpp: initialize, computeStoredElasticEnergyDensity"]}
{"id": "C133", "title": "The forces of the PALS material are balanced, objective and the gradient of its energy", "statement": "The internal forces of the position-aware linear solid sum to zero, have no total moment and rotate with the body; a rigid motion from the reference configuration causes neither force nor dilatation nor energy; and along every displacement the stored energy changes exactly at the rate of the work done against the forces.", "quantifier": "all configurations, neighborhoods, influence functions and displacements (exact arithmetic)", "why_tests_cant": "all configurations; force and energy are computed by separate code", "anchors": ["src/materials/pals.cxx: computeDilatationAndPalsPressure, computeInternalForcePals", "src/materials/Peridigm_Pals_Model.cpp: computeForce, computeStoredElasticEnergyDensity"]}
{"id": "C134", "title": "The PALS material takes no notice of bond damage", "statement": "Set-up, forces and stored energy of the position-aware linear solid are the same whatever the damage of the bonds: a body all of whose bonds are broken still resists.", "quantifier": "all configurations and damage states", "why_tests_cant": "absence of an effect in all states", "anchors": ["src/materials/Peridigm_Pals_Model.cpp: initialize, computeForce, computeStoredElasticEnergyDensity", "src/materials/pals.cxx: computeInternalForcePals"]}
{"id": "C135", "title": "The forces of the linear LPS material balance, with moments about the reference positions", "statement": "The internal forces of the linear peridynamic solid sum to zero and have no total moment about the positions the points had in the beginning (about the present positions they have one in general); they are defined whatever the present positions are; points whose bonds are all broken get no force (except with the improved quadrature, where they do). A material that asks for an option the program was not compiled with is refused.", "quantifier": "all configurations, neighborhoods, damage states, stored influence values and weighted volumes (exact arithmetic)", "why_tests_cant": "all configurations; accumulation over bonds in both directions", "anchors": ["src/materials/Peridigm_LinearLPSPVMaterial.cpp: LinearLPSPVMaterial, initialize, precompute, computeForce", "src/materials/linear_lps_pv.cxx: computeDilatationLinearLPS, computeInternalForceLinearLPS", "src/materials/elastic_pv.cxx: computeWeightedVolumePV", "src/materials/material_utilities.cxx: computeAndStoreInfluenceFunctionValues"]}
{"id": "C136", "title": "The linear LPS material is linear, reciprocal and stable, and free of force under infinitesimal rigid motions", "statement": "Dilatation and force of the linear peridynamic solid are linear functions of the displacement. They vanish for a translation plus an infinitesimal rotation, but not for a finite rotation. The work of the forces of one displacement on another is that of the forces of the other on it, and the work on the displacement itself is never positive, zero only if to first order no bond that carries force changes length.", "quantifier": "all meshes, displacements, moduli, damage between none and full (exact arithmetic)", "why_tests_cant": "statements about all pairs of displacements; stability needs an inequality between sums over neighborhoods", "anchors": ["src/materials/Peridigm_LinearLPSPVMaterial.cpp: initialize, precompute, computeForce"]}
{"id": "C137", "title": "The linear LPS material is the linearisation of the nonlinear elastic material", "statement": "At the reference configuration, without temperature change and with every bond intact or broken, the derivatives of dilatation and force of the elastic (LPS) material in the direction of a displacement are the dilatation and force the linear material computes for that displacement.", "quantifier": "all meshes, displacements, moduli and sets of broken bonds (exact arithmetic)", "why_tests_cant": "a derivative; two separate implementations", "anchors": ["src/materials/Peridigm_LinearLPSPVMaterial.cpp: precompute, computeForce", "src/materials/elastic.cxx: computeInternalForceLinearElastic", "src/materials/material_utilities.cxx: computeDilatation"]}
{"id": "C138", "title": "Bond-associated correspondence: deformation gradients of polynomial fields are exact", "statement": "In the bond-associated correspondence material the deformation gradient and its rate at a point are exact for displacements and velocities that are polynomials of at most the order of accuracy, wherever the intact neighbors determine such polynomials, at every evaluation of an analysis, provided that points whose bonds have changed since the evaluation before report growing damage; the influence of a bond is then always that of its present damage. Where the neighbors do not determine linear fields the gradient can be wrong and no error is raised, although one is documented; bonds broken from the beginning act as intact ones; a bond broken in one evaluation of a step and intact in the next one of that step stays broken for the weights.", "quantifier": "all point clouds, orders of accuracy, polynomial fields, damage histories, and all singular value decompositions a correct routine may return (exact arithmetic)", "why_tests_cant": "all polynomials and all histories of damage; weights are recomputed only when a flag says so", "anchors": ["src/materials/Peridigm_BondAssociatedCorrespondenceMaterial.cpp: initialize, precompute", "src/materials/correspondence.cxx: computeLagrangianGradientWeights, updateGradientWeightEvaluationFlag, computeDeformationGradient (Lagrangian), computeWeightedVolume, invertAndCond", "src/core/Peridigm_ModelEvaluator.cpp: evalModel"]}
{"id": "C139", "title": "Bond-associated correspondence: forces sum to zero, broken points have none, evaluations are defined", "statement": "The internal forces sum to zero, whatever the stresses, the damage, and the gradients received for ghost points. A point all of whose bonds are broken gets no force in an analysis in which damage is reported. An evaluation is defined if the order of accuracy and the horizons are not zero, gradients at points and intact bonds are invertible, and intact bonds have a length and weighted volumes at both ends.", "quantifier": "all configurations, neighborhoods, stresses, damage (exact arithmetic)", "why_tests_cant": "all configurations; accumulation over bonds in both directions", "anchors": ["src/materials/Peridigm_BondAssociatedCorrespondenceMaterial.cpp: computeForce", "src/materials/correspondence.cxx: computeBondLevelUnrotatedRateOfDeformationAndRotationTensor, computeBondLevelPiolaStress, computeStressIntegral"]}
{"id": "C140", "title": "Bond-associated correspondence: power and moments", "statement": "On a body with mutual neighborhoods, horizons that agree across bonds and damage that is the same for both copies of a bond, the power of the internal forces is minus the sum over the bonds of the power of their first Piola-Kirchhoff stresses over the rates of their deformation gradients. If the Cauchy stresses are symmetric, as those of the elastic material are throughout an analysis, and the neighbors of all points determine linear fields, the moments of the forces about the present positions sum to zero.", "quantifier": "all such bodies, motions and stress updates that treat bonds alike (exact arithmetic)", "why_tests_cant": "an identity between a double sum over points and a sum over bonds", "anchors": ["src/materials/Peridigm_BondAssociatedCorrespondenceMaterial.cpp: computeForce", "src/materials/Peridigm_ElasticBondAssociatedCorrespondenceMaterial.cpp: computeCauchyStress"]}
{"id": "C141", "title": "Bond-associated correspondence: the gradient at a bond", "statement": "The deformation gradient of a bond maps the bond to its present position, whatever the gradients at its ends; for an affine motion it is exact, and so is its rate. Influence and stresses of both copies of a bond agree throughout an analysis.", "quantifier": "all configurations and histories (exact arithmetic)", "why_tests_cant": "all configurations; state kept twice per bond", "anchors": ["src/materials/correspondence.cxx: computeBondLevelUnrotatedRateOfDeformationAndRotationTensor", "src/materials/Peridigm_BondAssociatedCorrespondenceMaterial.cpp: precompute, computeForce"]}
{"id": "C142", "title": "Bond-associated correspondence: rigid motions of the elastic material", "statement": "Whatever affine deformation an elastic body has, velocities of a rigid motion leave the unrotated stresses unchanged and carry left stretches and Cauchy stresses along, and without stresses there are no forces; so a body that starts without stress and moves rigidly stays free of force.", "quantifier": "all bodies whose neighbors determine linear fields, all rigid velocities (exact arithmetic)", "why_tests_cant": "all motions", "anchors": ["src/materials/Peridigm_ElasticBondAssociatedCorrespondenceMaterial.cpp: computeCauchyStress", "src/materials/elastic_correspondence.cxx: updateBondLevelElasticCauchyStress"]}
{"id": "C143", "title": "Nonlinear hardening plasticity: the stress is on the yield surface of the recorded plastic strain", "statement": "After a step of the radial return for power-law or saturating exponential hardening the recorded von Mises stress is that of the stress; the stress is within the yield surface of the recorded equivalent plastic strain up to 1e-16 times the bulk modulus, and on or outside it if the elastic stress reached the yield stress; otherwise the step is elastic. The plastic strain is that of the exact return, which exists and is unique, from below and within the tolerance over three times the shear modulus.", "quantifier": "all stresses, rates of deformation, time steps, plastic strains and hardening parameters that harden without becoming steeper (exact arithmetic)", "why_tests_cant": "a Newton iteration over the reals; all inputs and numbers of passes", "anchors": ["src/materials/isotropic_hardening_correspondence.cxx: radialReturnPowerlaw, radialReturnSaturationExponential"]}
{"id": "C144", "title": "Nonlinear hardening plasticity: flow rule", "statement": "The radial return changes neither the mean stress, which is elastic, nor the direction of the deviatoric stress, and keeps a symmetric stress symmetric. The equivalent plastic strain never decreases; it grows by the equivalent of the plastic strain that the change of the stress implies, and the power of the plastic strain is the von Mises stress times that growth, so never negative.", "quantifier": "all inputs as above (exact arithmetic)", "why_tests_cant": "all inputs", "anchors": ["src/materials/isotropic_hardening_correspondence.cxx: radialReturnPowerlaw, radialReturnSaturationExponential"]}
{"id": "C145", "title": "Nonlinear hardening plasticity: the iteration ends", "statement": "With sensible parameters the radial return gives a result or stops the program, and it gives a result whenever the slope of the yield stress is at most three times the shear modulus and the elastic stress at most 1e14 times the bulk modulus; in general the residual shrinks by the factor slope / (3 shear modulus + slope) in each of the hundred passes. The constructor accepts the two rules with all their parameters present, without checking their values: a characteristic strain of zero makes every step divide by zero.", "quantifier": "all inputs as above (exact arithmetic)", "why_tests_cant": "convergence of an iteration for all inputs", "anchors": ["src/materials/isotropic_hardening_correspondence.cxx: radialReturnPowerlaw, radialReturnSaturationExponential", "src/materials/Peridigm_IsotropicHardeningPlasticBondAssociatedCorrespondenceMaterial.cpp: constructor"]}
{"id": "C146", "title": "Nonlinear hardening plasticity is isotropic", "statement": "A step with rotated or reflected rate of deformation and stress succeeds if the original one does, and gives the rotated stress, the same plastic strain and the same von Mises stress.", "quantifier": "all rotations and reflections, all inputs as above (exact arithmetic)", "why_tests_cant": "all rotations; the iteration must make the same passes", "anchors": ["src/materials/isotropic_hardening_correspondence.cxx: radialReturnPowerlaw, radialReturnSaturationExponential"]}
{"id": "C147", "title": "Nonlinear hardening plasticity: whole analyses", "statement": "In every analysis, at every point and every bond, the equivalent plastic strain starts at zero and never decreases, the stress stays within the yield surface up to the tolerance, steps below the yield stress are elastic, and the analysis is not stopped by the iteration if the initial slope of the yield stress is at most three times the shear modulus (and elastic stresses stay below 1e14 times the bulk modulus).", "quantifier": "all neighborhoods, histories of rates of deformation and time steps (exact arithmetic)", "why_tests_cant": "invariants of runs of any length", "anchors": ["src/materials/Peridigm_IsotropicHardeningPlasticBondAssociatedCorrespondenceMaterial.cpp: initialize, computeCauchyStress", "src/materials/isotropic_hardening_correspondence.cxx: updateElasticIsotropicPowerlawHardeningPlasticCauchyStress, updateElasticIsotropicSaturationExponentialHardeningPlasticCauchyStress, bond-level versions"]}
{"id": "C148", "title": "Nonlinear hardening plasticity: stress triaxiality", "statement": "The recorded stress triaxiality of points and bonds is the mean stress over the von Mises stress.", "quantifier": "all analyses (exact arithmetic)", "why_tests_cant": "depends on the state exchange of previous steps", "anchors": ["src/materials/isotropic_hardening_correspondence.cxx: updateBondLevelElasticIsotropicSaturationExponentialHardeningPlasticCauchyStress", "src/damage/Peridigm_JohnsonCookDamageModel.cpp: computeDamage"]}
{"id": "C149", "title": "Each block gets its material with its own horizon", "statement": "Every block gets a material of the model its parameters name, with the horizon of the block put in (and not one of another block) and the other parameters as the user gave them; a block whose material, horizon or damage model is missing is refused. Multiphysics materials are used exactly in multiphysics analyses.", "quantifier": "all inputs with any number of blocks and materials", "why_tests_cant": "all combinations of blocks, materials and horizons", "anchors": ["src/core/Peridigm.cpp: constructor (material models of the blocks)", "src/core/Peridigm_Block.cpp", "src/core/Peridigm_HorizonManager.cpp"]}
{"id": "C150", "title": "Every point has the density of its block", "statement": "After initialization every owned point carries the density of the material of its block, whatever the order of blocks and points, and all points are reached.", "quantifier": "all partitions of points into blocks", "why_tests_cant": "all partitions and densities", "anchors": ["src/core/Peridigm.cpp: constructor (density), initializeBlocks"]}
{"id": "C151", "title": "The tangent matrix fits the solvers", "statement": "All lists whose name contains Solver are run, in the order of the input; the scheme of each is one of the four known ones. The stiffness matrix that is allocated is the one all solvers can work with: none in purely explicit analyses, the full matrix if a solver asks for it.", "quantifier": "all lists of solvers", "why_tests_cant": "all combinations of solvers and preconditioners", "anchors": ["src/core/Peridigm.cpp: constructor (allocation of tangents), execute, allocateJacobian, allocateBlockDiagonalJacobian", "src/core/Peridigm_Factory.cpp"]}
{"id": "C152", "title": "Time-dependent critical stretch and friction follow the user's functions", "statement": "Whenever the internal force is evaluated the critical stretch and the coefficient of friction given as functions of time have the values of these functions at the current time.", "quantifier": "all functions, analyses, solvers, numbers and lengths of steps (exact arithmetic)", "why_tests_cant": "runs of any length with any functions", "anchors": ["src/core/Peridigm.cpp: constructor, executeExplicit", "src/damage/Peridigm_UserDefinedTimeDependentCriticalStretchDamageModel.cpp: evaluateParserDmg", "src/contact/Peridigm_UserDefinedTimeDependentShortRangeForceContactModel.cpp: evaluateParserFriction"]}
{"id": "C153", "title": "Every damage model works with every solver", "statement": "An analysis whose input names existing damage models runs through all its solvers as far as the damage models are concerned.", "quantifier": "all inputs, all sequences of solvers, any number of steps", "why_tests_cant": "all sequences of solvers", "anchors": ["src/core/Peridigm.cpp: constructor, executeExplicit", "src/damage/Peridigm_InterfaceAwareDamageModel.cpp: computeDamage", "src/damage/Peridigm_DamageModelFactory.cpp"]}
{"id": "C154", "title": "Points that lost their bonds are taken out of the system", "statement": "With the interface-aware damage model the residual entries of exactly those points are set to zero that have at most two whole bonds left.", "quantifier": "all meshes, blocks, bond states and vectors (exact arithmetic)", "why_tests_cant": "all meshes and numberings", "anchors": ["src/damage/Peridigm_InterfaceAwareDamageModel.cpp: computeDamage", "src/core/Peridigm_BoundaryAndInitialConditionManager.cpp: createRankDeficientBC, applyKinematicBC_InsertZeros"]}
{"id": "C155", "title": "The quantities asked for in output lists are computed", "statement": "For every variable listed in any of the output lists that names a compute class exactly one object of the class is built, with the compute class parameters if they are given and without otherwise; nothing else is built, other names are passed over, and storage is asked for exactly the fields of the objects. Any variable can be asked for.", "quantifier": "all inputs with any number of output lists and compute class parameters", "why_tests_cant": "all combinations of lists", "anchors": ["src/core/Peridigm.cpp: instantiateComputeManager", "src/core/Peridigm_ComputeManager.cpp: constructor, FieldIds", "src/compute/compute_includes.hpp"]}
{"id": "C156", "title": "A viscoplastic step keeps mean stress and direction", "statement": "A step of the viscoplastic correspondence material gives a result for all deformations and histories; the mean stress is the elastic one, the deviatoric stress has the direction of the elastic one and is not larger, the von Mises stress recorded is that of the stress, below the (locally reduced) yield stress the step is elastic, plastic strain does not decrease, symmetry is kept, and a step that is not elastic ends on the flow stress of some plastic increment.", "quantifier": "all sound constants, time steps, rates of deformation, stresses and plastic strains (exact arithmetic)", "why_tests_cant": "all deformations and histories", "anchors": ["src/materials/viscoplastic_needleman_correspondence.cxx: updateElasticViscoplasticCauchyStress, ViscoplasticNeedlemanYieldFunction"]}
{"id": "C157", "title": "The viscoplastic increment solves its equation", "statement": "The plastic increment of a step solves the equation that balances elastic and plastic strain along the stress to a relative 1e-6, so that the stress is the flow stress at the rate of the step.", "quantifier": "all sound constants, time steps, rates of deformation, stresses and plastic strains (exact arithmetic)", "why_tests_cant": "all sizes of increments", "anchors": ["src/materials/viscoplastic_needleman_correspondence.cxx: updateElasticViscoplasticCauchyStress (bisection)"]}
{"id": "C158", "title": "Viscoplastic stress and recorded plastic strain fit together", "statement": "After a plastic step the von Mises stress is, to one per cent, the flow stress at the recorded plastic strain and its rate.", "quantifier": "all sound constants, time steps, rates of deformation, stresses and plastic strains (exact arithmetic)", "why_tests_cant": "all deformations and histories", "anchors": ["src/materials/viscoplastic_needleman_correspondence.cxx: updateElasticViscoplasticCauchyStress (update of the equivalent plastic strain)"]}
{"id": "C159", "title": "The viscoplastic stress depends continuously on the deformation", "statement": "Small changes of the rate of deformation change the stress after a step by little.", "quantifier": "all sound constants, time steps, rates of deformation, stresses and plastic strains (exact arithmetic)", "why_tests_cant": "a statement about limits", "anchors": ["src/materials/viscoplastic_needleman_correspondence.cxx: updateElasticViscoplasticCauchyStress (check for definitely elastic steps)"]}
{"id": "C160", "title": "Plasticity of the correspondence materials is isotropic", "statement": "A step of the viscoplastic, perfectly plastic or linearly hardening material with rotated or reflected rate of deformation and stress gives the rotated stress and the same plastic strain and von Mises stress.", "quantifier": "all orthogonal matrices, sound constants, deformations and histories (exact arithmetic)", "why_tests_cant": "all rotations", "anchors": ["src/materials/viscoplastic_needleman_correspondence.cxx: updateElasticViscoplasticCauchyStress", "src/materials/elastic_plastic_correspondence.cxx: updateElasticPerfectlyPlasticCauchyStress", "src/materials/isotropic_hardening_correspondence.cxx: updateElasticIsotropicHardeningPlasticCauchyStress"]}
{"id": "C161", "title": "Runs of the viscoplastic material", "statement": "From the initial state an analysis with sound constants can always make a further step; plastic strains are never negative and never decrease, mean stresses change elastically, recorded von Mises stresses are those of the stresses; a flaw lowers the yield stress around its place and raises it nowhere.", "quantifier": "runs of any length, any number of points, all deformations and positive time steps (exact arithmetic)", "why_tests_cant": "runs of any length", "anchors": ["src/materials/Peridigm_ViscoPlasticNeedlemanCorrespondenceMaterial.cpp", "src/materials/viscoplastic_needleman_correspondence.cxx: updateElasticViscoplasticCauchyStress"]}
{"id": "C162", "title": "Hypoelastic velocity gradients are exact", "statement": "The hypoelastic correspondence material gives, at a point that does not fly, the exact velocity gradient of a velocity field whose degree does not exceed the order of accuracy, and changes the Jacobian determinant by its trace; the velocity gradient of a bond maps the current bond to the difference of the velocities of its ends; a flying point has no velocity gradient and its Jacobian determinant becomes zero.", "quantifier": "any number of points, all positions, velocities, time steps, damage and flying points (exact arithmetic)", "why_tests_cant": "all point sets and velocity fields", "anchors": ["src/materials/Peridigm_HypoelasticCorrespondenceMaterial.cpp: precompute", "src/materials/correspondence.cxx: computeVelocityGradient, computeGradientWeights, computeBondLevelVelocityGradient"]}
{"id": "C163", "title": "Hypoelastic forces balance, and vanish for what has broken off", "statement": "The forces of the hypoelastic correspondence material add up to zero whatever the state; a point all of whose bonds are broken, or that flies, has none; evaluations are defined where bonds have length and positive volumes.", "quantifier": "any number of points, all positions, velocities, time steps, damage and flying points (exact arithmetic)", "why_tests_cant": "all states, all patterns of damage", "anchors": ["src/materials/Peridigm_HypoelasticCorrespondenceMaterial.cpp: computeForce", "src/materials/correspondence.cxx: computeNonhomogeneityIntegral, computeUndamagedWeightedVolume, updateGradientWeightEvaluationFlag"]}
{"id": "C164", "title": "Hypoelastic points beyond the horizon do not interact", "statement": "Points that are farther apart than the actual horizon do not pull at each other.", "quantifier": "any number of points, all positions, velocities, time steps, damage and flying points (exact arithmetic)", "why_tests_cant": "all positions, all influence functions", "anchors": ["src/materials/Peridigm_HypoelasticCorrespondenceMaterial.cpp: Actual Horizon", "src/materials/Peridigm_InfluenceFunction.hpp"]}
{"id": "C165", "title": "Power and moments of the hypoelastic forces", "statement": "Without flying points the power of the forces is minus the power of the Cauchy stresses over the velocity gradients of the bonds; where neighbors determine linear fields the moments about the current positions add up to zero, since the stresses of all three materials stay symmetric.", "quantifier": "runs of any length, any number of points, all positions, velocities, time steps and damage (exact arithmetic)", "why_tests_cant": "all runs", "anchors": ["src/materials/Peridigm_HypoelasticCorrespondenceMaterial.cpp: computeForce", "src/materials/correspondence.cxx: computeBondLevelVelocityGradient, updateBondLevelUnrotatedRateOfDeformationAndRotationTensor"]}
{"id": "C166", "title": "Rigid motions of the hypoelastic material", "statement": "A rigid motion leaves Jacobian determinants and unrotated stresses of the elastic hypoelastic material unchanged and carries Cauchy stresses along.", "quantifier": "any number of points, all angular velocities and rotations, all states (exact arithmetic)", "why_tests_cant": "all rotations and states", "anchors": ["src/materials/Peridigm_HypoelasticCorrespondenceMaterial.cpp: precompute, computeForce", "src/materials/correspondence.cxx: updateBondLevelUnrotatedRateOfDeformationAndRotationTensor", "src/materials/elastic_correspondence.cxx: updateBondLevelElasticCauchyStress"]}
{"id": "C167", "title": "Plasticity of the hypoelastic materials", "statement": "Von Mises stresses of the perfectly plastic hypoelastic material never exceed the yield stress, at points and bonds, and those of the hardening material never exceed the elastic ones or the yield stress at the plastic strain; plastic strain does not decrease; recorded von Mises stresses and triaxialities are those of the stresses.", "quantifier": "runs of any length, all deformations and damage (exact arithmetic)", "why_tests_cant": "all deformations and histories", "anchors": ["src/materials/elastic_plastic_correspondence.cxx: updateElasticPerfectlyPlasticCauchyStress, updateBondLevelElasticPerfectlyPlasticCauchyStress", "src/materials/isotropic_hardening_correspondence.cxx: updateElasticIsotropicPowerlawHardeningPlasticCauchyStress, updateBondLevelElasticIsotropicPowerlawHardeningPlasticCauchyStress"]}
{"id": "C168", "title": "Hypoelastic deformation gradient, volume and strain agree", "statement": "The Jacobian determinant with which the hypoelastic material scales volumes is the determinant of the deformation gradient it writes, and the strain it writes vanishes in rigid motions.", "quantifier": "any number of points, all states and velocities (exact arithmetic)", "why_tests_cant": "all motions", "anchors": ["src/materials/correspondence.cxx: updateDeformationGradient, computeGreenLagrangeStrain, computeVelocityGradient"]}
{"id": "C169", "title": "The k-d tree finds exactly the points within the radius", "statement": "JAMSearchTree::FindPointsWithinRadius returns the ids of the points whose distance from the given point is at most the radius, each exactly once, and nothing for a negative radius.", "quantifier": "all sets of finite coordinates, all orders in which std::sort may leave equal coordinates, all centers and radii (the construction may round, the query is exact)", "why_tests_cant": "all point sets and queries; subtrees are skipped or reported whole, depending on all cuts above them", "anchors": ["src/io/kdtree.h: all_neighbors_within_radius, search, make_tree, find_median", "src/io/Peridigm_JAMSearchTree.cpp: FindPointsWithinRadius"]}
{"id": "C170", "title": "The k-d tree finds exactly the points in a cube", "statement": "all_neighbors_cube returns the ids of the points in the closed cube with the given center and half side, each exactly once.", "quantifier": "all sets of finite coordinates, all orders in which std::sort may leave equal coordinates, all centers and radii (the construction may round, the query is exact)", "why_tests_cant": "all point sets and queries", "anchors": ["src/io/kdtree.h: all_neighbors_cube, search, report_node"]}
{"id": "C171", "title": "The nearest neighbor search of the k-d tree", "statement": "nearest_neighbor_search returns a point to which no other point of the tree is closer; it refuses search points that have not three coordinates and trees without points.", "quantifier": "all sets of finite coordinates, all orders in which std::sort may leave equal coordinates, all centers and radii (the construction may round, the query is exact)", "why_tests_cant": "all point sets and queries; the second subtree is skipped depending on what was found in the first", "anchors": ["src/io/kdtree.h: nearest_neighbor_search, nn_search"]}
{"id": "C172", "title": "Construction of the k-d tree", "statement": "A k-d tree can be built of any points; its nodes fit into the array reserved for them, and every point is in exactly one leaf.", "quantifier": "all finite sets of points (exact arithmetic, and any rounding)", "why_tests_cant": "all point sets; the construction rearranges three index arrays in place in a recursion", "anchors": ["src/io/kdtree.h: make_tree, find_median, get_spanning_axis, point_array::sort"]}
{"id": "C173", "title": "The two search trees can be exchanged", "statement": "JAMSearchTree and ZoltanSearchTree, the two implementations of SearchTree, return the same points for the same query.", "quantifier": "all point sets and queries (exact queries)", "why_tests_cant": "all point sets and queries", "anchors": ["src/io/Peridigm_JAMSearchTree.cpp: FindPointsWithinRadius", "src/io/Peridigm_ZoltanSearchTree.cpp: FindPointsWithinRadius", "src/io/Peridigm_SearchTree.hpp"]}
{"id": "C174", "title": "The shear correction factor restores the classical energy", "statement": "With Apply Shear Correction Factor, a point of a multiphysics material whose undamaged neighborhood is sheared by the probing amount in a plane of two axes reports an energy of distortion that is at most the one of classical elasticity, and equal to it in at least one of the three planes; without the factor it is not.", "quantifier": "all bodies with non-negative volumes and influence function for which the initialization succeeds, all shear moduli, all points", "why_tests_cant": "all shapes of neighborhoods; the factor is computed once from three probing motions and used in other functions", "anchors": ["src/materials/material_utilities.cxx: computeShearCorrectionFactor, set_pure_shear", "src/materials/Peridigm_MultiphysicsElasticMaterial.cpp: initialize, computeStoredElasticEnergyDensity"]}
{"id": "C175", "title": "The shear correction factor of the material with hardening", "statement": "With Apply Shear Correction Factor, the material Elastic Plastic Hardening stores the classical energy of distortion in the strongest of the three probing shears.", "quantifier": "all bodies with non-negative volumes for which the initialization succeeds, all points", "why_tests_cant": "all shapes of neighborhoods; the factor is inverted after it was computed, and the kernel applies it", "anchors": ["src/materials/Peridigm_ElasticPlasticHardeningMaterial.cpp: initialize", "src/materials/material_utilities.cxx: computeShearCorrectionFactor"]}
{"id": "C176", "title": "Which bodies can be given a shear correction factor", "statement": "The materials with surface correction can be initialized exactly if every point has two bonds whose lengths change in different ratios in one of the probing shears; not if the neighbors of a point are on one line, or if it has none.", "quantifier": "all bodies in which all bonds have a positive weight; for the failure all bodies", "why_tests_cant": "all neighborhoods; a denominator vanishes for some of them", "anchors": ["src/materials/material_utilities.cxx: computeShearCorrectionFactor", "src/materials/Peridigm_MultiphysicsElasticMaterial.cpp: initialize"]}
{"id": "C177", "title": "What the shear correction factor depends on", "statement": "The shear correction factor of a point depends on nothing but the shape of its reference neighborhood: not on numbering, order, place, unit of length, scale of the volumes, other points, or orientation of the body.", "quantifier": "all pairs of bodies and points with neighborhoods of the same shape", "why_tests_cant": "relates two runs, for all of them", "anchors": ["src/materials/material_utilities.cxx: computeShearCorrectionFactor, set_pure_shear, computeDilatation"]}
{"id": "C178", "title": "Force and energy of the multiphysics material", "statement": "The forces of the multiphysics material are those of an energy: with the pore pressure held, work is done against them at the rate at which the reported stored energy less pressure times dilatation grows, for every shear correction factor.", "quantifier": "all bodies with intact or broken bonds, all pressures and factors, all displacements", "why_tests_cant": "a derivative along all displacements; force and energy are computed in different files", "anchors": ["src/materials/multiphysics_elastic.cxx: computeInternalForceLinearElasticCoupled", "src/materials/Peridigm_MultiphysicsElasticMaterial.cpp: computeStoredElasticEnergyDensity"]}
{"id": "C179", "title": "The deformation gradient is computed in every block", "statement": "The compute class Deformation_Gradient gives each point whose neighbors are enough to determine it the gradient of its motion; a point for which it cannot be determined gets zero and a warning, and does not affect others.", "quantifier": "all lists of blocks, all neighborhoods, all motions", "why_tests_cant": "depends on the order of the blocks and on points of other blocks", "anchors": ["src/compute/Peridigm_Compute_Deformation_Gradient.cpp: compute", "src/materials/correspondence.cxx: computeShapeTensorInverseAndApproximateDeformationGradient"]}
{"id": "C180", "title": "The error is the integral of the squared difference of displacements", "statement": "The field Error of a point from a rectangular hex is the integral over the hex of the squared difference between the displacement of the point and (x*x, 0, 0); meshes for which it cannot be computed are refused.", "quantifier": "all points, all displacements, all node positions in any order", "why_tests_cant": "an integral over a box, for all boxes and displacements; unit tests compare single values", "anchors": ["src/compute/Peridigm_Compute_Error.cpp: compute, computeError_1", "src/core/Peridigm.cpp: initialize (Exodus_Node_1 ...)"]}
{"id": "C181", "title": "The global error is the sum over all points of all processors", "statement": "Global_Error is the sum of the field Error over all points, blocks and processors; there is no result if any element was refused.", "quantifier": "all distributions of elements over blocks and processors", "why_tests_cant": "all numbers of processors and blocks", "anchors": ["src/compute/Peridigm_Compute_Error.cpp: compute"]}
{"id": "C182", "title": "The file of bonds shows the bonds", "statement": "Reading the file that Bond_Visualization writes gives one segment for each bond of the processor (or of the point Node Id), between the reference positions of its ends, in the order of the neighbor lists, and no other segment; each point occurs once.", "quantifier": "all blocks, neighbor lists and numberings, with and without Node Id", "why_tests_cant": "all meshes; the numbering of the points in the file is made from global ids", "anchors": ["src/compute/Peridigm_Compute_Bond_Visualization.cpp: initialize, writeVTK"]}
{"id": "C183", "title": "The radius of a point", "statement": "The field Radius is the radius of the ball that has the volume of the point.", "quantifier": "all volumes", "why_tests_cant": "all volumes; the exponent and the constant are computed", "anchors": ["src/compute/Peridigm_Compute_Radius.cpp: initialize"]}
{"id": "C184", "title": "Nodal variables are read back from the output file", "statement": "After any number of outputs, looking up a nodal variable by its name (name, nameX, nameY, nameZ), the number of the output and the identifier of a point gives the value the field had at that point when that output was made; the time of the output is the one passed.", "quantifier": "all requests with distinct names, all distributions of points over blocks, all numberings, all sequences of outputs", "why_tests_cant": "values pass through name maps, number maps, shared buffers and interleaved storage; all requests and meshes", "anchors": ["src/io/Peridigm_OutputManager_ExodusII.cpp: write, initializeExodusDatabase"]}
{"id": "C185", "title": "Element variables are read back from the output file", "statement": "After any number of outputs, looking up a component of an element variable by its name, the number of the output and the identifier of a point gives the value the field had there; Element_Id is the identifier counted from one, Proc_Num the rank; blocks without the field have no value.", "quantifier": "all requests with distinct names, scalars, vectors, tensors and fields of N components, all blocks, all sequences of outputs", "why_tests_cant": "values pass through name maps, number maps, shared buffers and interleaved storage; all requests and meshes", "anchors": ["src/io/Peridigm_OutputManager_ExodusII.cpp: write, initializeExodusDatabase"]}
{"id": "C186", "title": "Global variables are read back from the output file", "statement": "After any number of outputs, looking up a component of a global variable by its name gives the value of the first block at that output, in files with fields and in files with global variables only.", "quantifier": "all requests with distinct names, all sequences of outputs", "why_tests_cant": "the position in the array of globals and the number of the name are computed independently", "anchors": ["src/io/Peridigm_OutputManager_ExodusII.cpp: write, initializeExodusDatabase, initializeExodusDatabaseWithOnlyGlobalData"]}
{"id": "C187", "title": "The mesh in the output file is the mesh of the analysis", "statement": "Reading the file, the position of the node with the identifier of a point is its reference position, the element with that identifier is in the block of the point, and the node of the element is the node with that identifier.", "quantifier": "all owned points in any order, all divisions into blocks", "why_tests_cant": "local, global and file numberings differ; all meshes", "anchors": ["src/io/Peridigm_OutputManager_ExodusII.cpp: initializeExodusDatabase"]}
{"id": "C188", "title": "The node sets in the output file are the node sets of the analysis", "statement": "Reading a node set of the file by its name gives the points of the node set of the analysis in their order; a node set with a point of another processor ends the run.", "quantifier": "all node sets of a processor", "why_tests_cant": "concatenated lists with offsets, all numbers and sizes of sets", "anchors": ["src/io/Peridigm_OutputManager_ExodusII.cpp: initializeExodusDatabase", "src/core/Peridigm.cpp: getExodusNodeSets"]}
{"id": "C189", "title": "Each output section and processor has its own file", "statement": "Different processors of a run, different kinds of files and different output sections write to different files.", "quantifier": "all names, all numbers of processors", "why_tests_cant": "all numbers of processors and all names", "anchors": ["src/io/Peridigm_OutputManager_ExodusII.cpp: initializeExodusDatabase, initializeExodusDatabaseWithOnlyGlobalData"]}
{"id": "C190", "title": "The truth table of the output file is right", "statement": "For a block with points the truth table of the file is true for an element variable exactly when the file holds values of the variable for that block.", "quantifier": "all requests, all blocks", "why_tests_cant": "two loops over blocks and variables must agree on order and number of components", "anchors": ["src/io/Peridigm_OutputManager_ExodusII.cpp: initializeExodusDatabase, write"]}
{"id": "C191", "title": "Any variable of the analysis can be requested", "statement": "A request of fields that the analysis has is written, whatever their names are and whichever blocks have them.", "quantifier": "all requests", "why_tests_cant": "all labels and combinations of labels", "anchors": ["src/io/Peridigm_OutputManager_ExodusII.cpp: write, initializeExodusDatabase"]}
{"id": "C192", "title": "Variables that the user switches off are not written", "statement": "Of the list Output Variables the entries with the value true are written and no others.", "quantifier": "all lists of output variables", "why_tests_cant": "all lists", "anchors": ["src/io/Peridigm_OutputManager_ExodusII.cpp: OutputManager_ExodusII, write, initializeExodusDatabase"]}
{"id": "C193", "title": "Contact forces are those of the contact law, for any processors and rebalances", "statement": "At every step the contact force on a point is the sum over the points in contact with it of the force of the contact model at the current positions and velocities, each pair counted from both sides; points move between processors at rebalances without any effect on the forces, and after a rebalance the pairs are those found by the search at the positions of that time, less the bonded pairs.", "quantifier": "all numbers of processors, all distributions, all sequences of steps with and without rebalance, all positions and velocities", "why_tests_cant": "the forces pass through imports, overlap vectors, rebuilt neighbor lists and summing exports; all distributions and all sequences", "anchors": ["src/core/Peridigm_ContactManager.cpp: initialize, rebalance, importData, evaluateContactForce, exportData", "src/core/Peridigm_ContactBlock.cpp", "src/contact/Peridigm_ShortRangeForceContactModel.cpp: computeForce", "src/core/Peridigm.cpp: executeExplicit"]}
{"id": "C194", "title": "The friction coefficient of a time-dependent contact model is the value of the function at the current time", "statement": "With the contact model Time Dependent Short Range Force the force at every step, also at the first evaluation, is that with the friction coefficient the user's function has at the time of the step.", "quantifier": "all functions, all sequences of times", "why_tests_cant": "functions are arbitrary programs with state, times are arbitrary", "anchors": ["src/contact/Peridigm_UserDefinedTimeDependentShortRangeForceContactModel.cpp: evaluateParserFriction", "src/core/Peridigm_ContactManager.cpp: evaluateContactForce", "src/core/Peridigm.cpp: executeExplicit"]}
{"id": "C195", "title": "Contact blocks have the contact model of the input", "statement": "The contact model of a contact block has the radius, spring constant and friction of the model the interactions name for the block and the horizon of the block; input that defines no such model is refused.", "quantifier": "all Contact sections, all blocks", "why_tests_cant": "all combinations of models, defaults and horizons", "anchors": ["src/core/Peridigm_ContactManager.cpp: initialize", "src/contact/Peridigm_ContactModelFactory.cpp: create"]}
{"id": "C196", "title": "The forces of a run follow the contact interactions of the input", "statement": "In the forces of a run, points of two blocks for which the input defines no interaction exert no contact force on each other, and changing the interactions changes the forces accordingly; of several definitions for a pair, by general contact and by name, the last one counts.", "quantifier": "all Interactions sections, all sets of blocks", "why_tests_cant": "all combinations of general, self and single interactions", "anchors": ["src/core/Peridigm_ContactManager.cpp: createContactInteractionsList, initialize, evaluateContactForce"]}
{"id": "C197", "title": "A converted mesh has the points and blocks of the mesh", "statement": "The sphere mesh written by the mesh converter, read by Peridigm, has the points of the original mesh: the same ids in the same blocks, the positions multiplied by the scale factor, the volumes those of the scaled mesh; a mesh that cannot be represented is refused.", "quantifier": "all consistent meshes of spheres, tetrahedra and hexahedra, all numberings, all scale factors", "why_tests_cant": "the composition of a reader and a writer over all meshes and numberings", "anchors": ["src/mesh_converter/Peridigm_MeshConverter_Main.cpp: main", "src/io/discretization/Peridigm_ExodusDiscretization.cpp: loadData"]}
{"id": "C198", "title": "A converted mesh has the node sets of the mesh", "statement": "Each node set of the converted mesh, read by Peridigm, has the name and the points of the node set of the original mesh.", "quantifier": "all consistent meshes, all node sets, all numberings", "why_tests_cant": "the numbering of the elements is arbitrary; tests use meshes numbered in order", "anchors": ["src/mesh_converter/Peridigm_MeshConverter_Main.cpp: main", "src/io/discretization/Peridigm_ExodusDiscretization.cpp: loadData"]}
{"id": "C199", "title": "Boundary layers of a converted mesh are the points near its faces", "statement": "With a boundary layer thickness the converted mesh has a node set for each end of each axis that holds exactly the points less than the thickness away from the outermost point, and a node set with all points not in the layer at the upper end of x.", "quantifier": "all meshes, all thicknesses, all numberings", "why_tests_cant": "all positions of the points", "anchors": ["src/mesh_converter/Peridigm_MeshConverter_Main.cpp: main"]}
{"id": "C200", "title": "The neighborhood file determines the neighborhoods", "statement": "The file written for the neighborhoods of a mesh determines the points, their neighbors and the positions of the lists: different neighborhoods have different files.", "quantifier": "all neighborhoods", "why_tests_cant": "injectivity of a text format over all data", "anchors": ["src/core/Peridigm_NeighborhoodData.hpp: WriteToDisk"]}
{"id": "C201", "title": "Records show the solver's vectors in every copy of a point", "statement": "When a record is written, displacement, coordinates, velocity, force densities, temperatures and so on of every point, in every block and on every processor, as owned point or as ghost, are those of the solver's global vectors at that moment; nothing else is changed, apart from the sum of the hourglass forces, and no field gains or loses points.", "quantifier": "all numbers of solvers, steps, blocks and processors, all distributions, all work between records", "why_tests_cant": "all histories of an analysis and all distributions over processors", "anchors": ["src/core/Peridigm.cpp: synchDataManagers, executeSolvers", "src/core/Peridigm_BlockBase.cpp: importData"]}
{"id": "C202", "title": "Recorded hourglass forces are the sum of all contributions", "statement": "The hourglass force density in a record is, at every point, the sum of the contributions of all bonds in all blocks and on all processors at that moment.", "quantifier": "all sequences of solvers, all distributions", "why_tests_cant": "depends on what ran before: one solver after another, with ghosts", "anchors": ["src/core/Peridigm.cpp: synchDataManagers, executeSolvers"]}
{"id": "C203", "title": "All fields of a record belong to the same moment", "statement": "In every record, fields computed by materials and damage models (dilatation, damage, stress, ...) belong to the same state as displacement and coordinates.", "quantifier": "all sequences of solvers, all fields of two steps", "why_tests_cant": "the interplay of the two steps of a field with the order of several solvers", "anchors": ["src/core/Peridigm.cpp: executeSolvers, executeExplicit, executeQuasiStatic, executeImplicit, executeNOXQuasiStatic", "src/core/Peridigm_BlockBase.hpp: updateState"]}
{"id": "C204", "title": "The internal force for an external driver is volume times force density", "statement": "computeInternalForce evaluates the model with the driver's vectors in every copy of every point and returns, at every owned point, its volume times the sum of all force densities stored for it; vectors that are not finite, forces that are not finite and multiphysics are refused.", "quantifier": "all models, vectors, blocks and processors", "why_tests_cant": "all distributions over blocks and processors, all non-finite values", "anchors": ["src/core/Peridigm.cpp: computeInternalForce"]}
{"id": "C205", "title": "The set-up of the synchronisation is sound", "statement": "The fields synchronised are those that any material or damage model asks for, each once; if the check passes no synchronisation fails later; any materials can be combined in one analysis.", "quantifier": "all lists of blocks with all materials and damage models", "why_tests_cant": "all combinations of materials", "anchors": ["src/core/Peridigm.cpp: initialize", "src/core/Peridigm_Block.cpp: DataManagerSynchronizer"]}
{"id": "C206", "title": "Initial values survive the synchronisation", "statement": "The Jacobian determinant of hypoelastic materials is 1 in the undeformed body after the set-up, and the flying point flag keeps its sign, however the body is divided into blocks and over processors.", "quantifier": "all divisions into blocks and processors, all numbers of evaluations", "why_tests_cant": "depends on the number of ghosts of each point", "anchors": ["src/materials/Peridigm_HypoelasticCorrespondenceMaterial.cpp: initialize", "src/core/Peridigm_Block.cpp: synchronize"]}
{"id": "C207", "title": "The dilatation of a linear LPS point does not depend on earlier evaluations", "statement": "The forces of \"Linear LPS Partial Volume\" are computed with the dilatation computed for each point from its current neighborhood, whatever materials other blocks have and however often the model was evaluated.", "quantifier": "all materials of other blocks, all divisions into blocks and processors, all numbers of evaluations", "why_tests_cant": "the error needs ghosts of a point in a block of another material and several evaluations", "anchors": ["src/materials/Peridigm_LinearLPSPVMaterial.cpp: precompute", "src/core/Peridigm_ModelEvaluator.cpp: evalModel", "src/core/Peridigm_Block.cpp: synchronize"]}
{"id": "C208", "title": "The strain written by the bond-associated material is that of the deformation gradient", "statement": "The Green-Lagrange strain written for a point is the Green-Lagrange strain of the deformation gradient written for it; in particular a body that is at rest or only turns is written without strain.", "quantifier": "all bodies, numbers of steps, step sizes and motions (exact arithmetic, no damage)", "why_tests_cant": "the error accumulates over the steps; all histories of motion", "anchors": ["src/materials/correspondence.cxx: updateGreenLagrangeStrain", "src/materials/Peridigm_BondAssociatedCorrespondenceMaterial.cpp: computeForce"]}
{"id": "C209", "title": "The stress written for a point is the stress of its bonds in affine motion", "statement": "The bond-associated material computes forces from the stresses of bonds and writes those of points, which it computes separately. In affine motions without damage, left stretch, rotation, rate of deformation and stresses of each point are those of all bonds.", "quantifier": "all bodies, stress laws, sequences of affine motions and step sizes (exact arithmetic)", "why_tests_cant": "all sequences of deformations", "anchors": ["src/materials/correspondence.cxx: computeNodeLevelUnrotatedRateOfDeformationAndRotationTensor, rotateCauchyStress", "src/materials/Peridigm_BondAssociatedCorrespondenceMaterial.cpp: computeForce"]}
{"id": "C210", "title": "An elastic correspondence body brought back to where it started is free of stress", "statement": "An elastic correspondence body that is deformed in any way and returned to its original shape has no stress afterwards.", "quantifier": "all bodies, paths and numbers of steps (exact arithmetic; paths of homogeneous stretches with fixed principal directions)", "why_tests_cant": "the stress is accumulated over steps; all paths and step sizes", "anchors": ["src/materials/elastic_correspondence.cxx: updateElasticCauchyStress", "src/materials/correspondence.cxx: computeUnrotatedRateOfDeformationAndRotationTensor", "src/core/Peridigm.cpp: executeExplicit"]}
{"id": "C211", "title": "An initial displacement stresses a correspondence body", "statement": "A body deformed by an initial displacement condition begins the analysis with the stress of that deformation.", "quantifier": "all bodies, initial displacements and stress laws (exact arithmetic)", "why_tests_cant": "all initial displacement fields", "anchors": ["src/core/Peridigm.cpp: constructor", "src/materials/Peridigm_CorrespondenceMaterial.cpp: initialize, computeForce"]}
{"id": "C212", "title": "A correspondence body in its reference configuration has no stress at time zero", "statement": "The stress and the internal force at time zero of a body in its reference configuration vanish, whatever its initial velocities.", "quantifier": "all bodies, initial velocities and time steps (exact arithmetic)", "why_tests_cant": "all velocity fields and time steps", "anchors": ["src/core/Peridigm.cpp: executeExplicit", "src/materials/Peridigm_CorrespondenceMaterial.cpp: initialize, computeForce"]}
{"id": "C213", "title": "The tangent by automatic differentiation is the derivative of the internal force", "statement": "The tangent of the elastic material that is computed by automatic differentiation (the default) has as its entries the derivatives of the internal forces by the coordinates, for the full matrix and for its block diagonal. It is computed exactly if every point has neighbors, none of them at the point's own position, and a weighted volume; otherwise the program ends, and does not go on with numbers that are not finite.", "quantifier": "every mesh, distribution over processors, deformation, bond damage, temperature and content of the scratch matrix (exact arithmetic; rules of differentiation of the library assumed)", "why_tests_cant": "derivatives cannot be observed in a finite number of evaluations; all meshes and states", "anchors": ["src/materials/Peridigm_ElasticMaterial.cpp: computeAutomaticDifferentiationJacobian, computeJacobian", "src/materials/elastic.cxx: computeInternalForceLinearElastic", "src/materials/material_utilities.cxx: computeDilatation"]}
{"id": "C214", "title": "Finite differences approximate the tangent by automatic differentiation", "statement": "When the user turns automatic differentiation off, the tangent by finite differences is defined for all small perturbations and its entries tend to those of the tangent by automatic differentiation as the perturbation tends to zero.", "quantifier": "every mesh, distribution over processors, deformation, bond damage and temperature (exact arithmetic)", "why_tests_cant": "a limit; all meshes and states", "anchors": ["src/materials/Peridigm_ElasticMaterial.cpp: computeJacobian", "src/materials/Peridigm_Material.cpp: computeFiniteDifferenceJacobian"]}
{"id": "C215", "title": "The tangent of the elastic material is symmetric", "statement": "The assembled tangent of the elastic material is a symmetric matrix, also when bonds are damaged and when weighted volumes are not up to date, so that solvers for symmetric matrices may be used.", "quantifier": "every mesh, distribution over processors, deformation, bond damage, temperature and weighted volume (exact arithmetic)", "why_tests_cant": "all meshes and states", "anchors": ["src/materials/Peridigm_ElasticMaterial.cpp: computeAutomaticDifferentiationJacobian"]}
{"id": "C216", "title": "Rigid motions and the elastic tangent", "statement": "Translations of the whole body are in the null space of the tangent of the elastic material, and the columns add up to zero. An infinitesimal rotation of the deformed body changes the forces as if they were turned with it, so rotations are in the null space wherever the internal forces vanish.", "quantifier": "every mesh, distribution over processors, deformation, bond damage and temperature (exact arithmetic)", "why_tests_cant": "all meshes, states and motions", "anchors": ["src/materials/Peridigm_ElasticMaterial.cpp: computeAutomaticDifferentiationJacobian"]}
{"id": "C217", "title": "The elastic tangent is stable as long as no bond pushes", "statement": "If every bond pulls or is free of force, as in the reference configuration, the quadratic form of the tangent is not positive: no displacement lets the internal forces do work to second order. For compressed bonds this is false.", "quantifier": "every mesh, distribution over processors, deformation without pushing bonds and bond damage between 0 and 1; nonnegative moduli and influence functions (exact arithmetic)", "why_tests_cant": "all displacements, meshes and states", "anchors": ["src/materials/Peridigm_ElasticMaterial.cpp: computeAutomaticDifferentiationJacobian", "src/materials/elastic.cxx: computeInternalForceLinearElastic"]}
{"id": "C218", "title": "The force that is differentiated is the force that is computed", "statement": "Tangents are assembled from neighborhoods that are evaluated one by one in a temporary data manager. The sum of the elastic forces so evaluated is the force density that the evaluation of the internal force gives for the same state, in which each processor evaluates all its points at once and the contributions of several processors to a point are added.", "quantifier": "every mesh, distribution over processors, deformation, bond damage and temperature (exact arithmetic)", "why_tests_cant": "all meshes, distributions and states", "anchors": ["src/materials/Peridigm_ElasticMaterial.cpp: computeAutomaticDifferentiationJacobian, computeForce", "src/materials/Peridigm_Material.cpp: computeFiniteDifferenceJacobian"]}
{"id": "C219", "title": "Before yielding the elastic-plastic material responds like the elastic material", "statement": "As long as the trial state of no point exceeds the yield value, the elastic-plastic material gives the same dilatation and the same forces as the elastic material with the same moduli, for bonds intact or broken and without plastic extension.", "quantifier": "every mesh, deformation, pattern of broken bonds and influence function (exact arithmetic)", "why_tests_cant": "all meshes and states; the two materials are tested apart, each against its own gold files", "anchors": ["src/materials/elastic_plastic.cxx: computeInternalForceIsotropicElasticPlastic", "src/materials/elastic.cxx: computeInternalForceLinearElastic"]}
{"id": "C220", "title": "The elastic-plastic tangent is the derivative of the internal force off the yield surface", "statement": "If no point is exactly on its yield surface, the tangent of the elastic-plastic material by automatic differentiation has as its entries the derivatives of the internal forces (with the return to the yield surface included, a consistent tangent), and the tangent by finite differences tends to it. It can be assembled exactly if every point has neighbors, none at its own position, and a weighted volume.", "quantifier": "every mesh, distribution over processors, deformation, plastic extension, bond damage and content of the scratch matrix (exact arithmetic; rules of differentiation of the library assumed)", "why_tests_cant": "derivatives cannot be observed in a finite number of evaluations; all meshes and states", "anchors": ["src/materials/Peridigm_ElasticPlasticMaterial.cpp: computeAutomaticDifferentiationJacobian, computeJacobian", "src/materials/elastic_plastic.cxx: computeInternalForceIsotropicElasticPlastic, computeDeviatoricForceStateNorm"]}
{"id": "C221", "title": "Block diagonal tangents of elastic-plastic blocks", "statement": "Whether the tangent is formed by automatic differentiation or by finite differences, the request for the block diagonal tangent of an elastic-plastic block yields the diagonal blocks of the tangent.", "quantifier": "every mesh, distribution over processors and state", "why_tests_cant": "all meshes and states", "anchors": ["src/materials/Peridigm_ElasticPlasticMaterial.cpp: computeJacobian"]}
{"id": "C222", "title": "Below yield the elastic-plastic tangent is the elastic tangent", "statement": "If no point yields, bonds are intact or broken and without plastic extension and the influence function is one, the tangents of the elastic-plastic and of the elastic material with the same moduli are equal; in particular the former is symmetric.", "quantifier": "every mesh, distribution over processors and deformation below yield (exact arithmetic)", "why_tests_cant": "all meshes and states", "anchors": ["src/materials/Peridigm_ElasticPlasticMaterial.cpp: computeAutomaticDifferentiationJacobian", "src/materials/Peridigm_ElasticMaterial.cpp: computeAutomaticDifferentiationJacobian"]}
{"id": "C223", "title": "The elastic-plastic tangent is symmetric", "statement": "The tangent of the elastic-plastic material by automatic differentiation is symmetric, as the default linear solver (conjugate gradients) needs it, also while points yield and for bonds intact or broken.", "quantifier": "every mesh, distribution over processors, deformation, plastic extension and pattern of broken bonds (influence function one, exact arithmetic)", "why_tests_cant": "all meshes and states; tests check convergence for one mesh, not symmetry", "anchors": ["src/materials/Peridigm_ElasticPlasticMaterial.cpp: computeAutomaticDifferentiationJacobian", "src/materials/elastic_plastic.cxx: computeInternalForceIsotropicElasticPlastic", "src/core/Peridigm.cpp: quasiStaticsSolveSystem"]}
{"id": "C224", "title": "Plastic flow keeps the volume", "statement": "Over any sequence of steps of the elastic-plastic material, elastic or plastic, the plastic extensions of the bonds of a point without damaged bonds never add up to a change of volume (their dilatation is zero), if they did not at the start; so the pressure stays that of the elastic material.", "quantifier": "every neighborhood, sequence of deformations and length of the history (influence function one, exact arithmetic)", "why_tests_cant": "an invariant over histories of any length", "anchors": ["src/materials/elastic_plastic.cxx: computeInternalForceIsotropicElasticPlastic", "src/materials/Peridigm_ElasticPlasticMaterial.cpp: computeForce"]}
{"id": "C225", "title": "Rigid motions and the elastic-plastic tangent", "statement": "Translations of the whole body are in the null space of the tangent of the elastic-plastic material and its columns add up to zero, whether or not points yield or bonds are damaged; an infinitesimal rotation of the deformed body turns the internal forces.", "quantifier": "every mesh, distribution over processors, deformation, plastic extension, bond damage and influence function (exact arithmetic)", "why_tests_cant": "all meshes and states", "anchors": ["src/materials/Peridigm_ElasticPlasticMaterial.cpp: computeAutomaticDifferentiationJacobian"]}
{"id": "C226", "title": "Damping makes the tangent of a quasi-static step definite", "statement": "The damped tangent of a quasi-static step differs from the tangent only on the diagonal, does not depend on the distribution over processors, and its energy is never below that of the tangent; so a semidefinite tangent becomes positive definite and the damped system has exactly one solution.", "quantifier": "every matrix with diagonal entries that are not negative, any distribution over processors, any factors (exact arithmetic)", "why_tests_cant": "all matrices; tests solve one system", "anchors": ["src/core/Peridigm.cpp: quasiStaticsDampTangent", "src/core/Peridigm.cpp: executeQuasiStatic"]}
{"id": "C227", "title": "The matrices that quasi-static iterations use", "statement": "Each linear system of a quasi-static step has the tangent of the current state, or a tangent at most seven iterations old that was damped exactly once; damping starts only after a failed linear solve or after many iterations, and a failed solve is repeated with a tangent damped for that purpose before the step is given up.", "quantifier": "every problem, tangent, linear solver, line search and number of iterations", "why_tests_cant": "all sequences of successes and failures of the linear solver", "anchors": ["src/core/Peridigm.cpp: executeQuasiStatic"]}
{"id": "C228", "title": "The diagnostics of the Jacobian", "statement": "The diagnostics of the Jacobian report the norms of its symmetric and of its asymmetric part, so that a Jacobian that is not symmetric is noticed.", "quantifier": "every matrix", "why_tests_cant": "tests do not look at the printed norms", "anchors": ["src/core/Peridigm.cpp: jacobianDiagnostics"]}
{"id": "C229", "title": "Data of the blocks before the first step", "statement": "Before the initial conditions are applied, every copy of a point, in any block and on any processor, as owned point or ghost, has the block, horizon, volume, position and global id that the discretization gives for it, its coordinates are its position at both steps, and a coupled problem starts with zero pressure; nothing else is written.", "quantifier": "every number of processors and blocks, distribution of points and overlap", "why_tests_cant": "tests look at one processor or two", "anchors": ["src/core/Peridigm.cpp: Peridigm::Peridigm"]}
{"id": "C230", "title": "The vectors of the analysis", "statement": "The vectors of the analysis (positions, displacements, velocities, forces, temperatures, pressures and so on) do not share storage; at the start block ids, horizons, volumes and positions are those of the discretization, current positions are the initial ones and all others are zero; the vectors of the fluid exist exactly in coupled problems.", "quantifier": "every number of processors, distribution of points and sequence of writes", "why_tests_cant": "all pairs of vectors; a shared column would show only in particular combinations of models", "anchors": ["src/core/Peridigm.cpp: initializeDiscretization"]}
{"id": "C231", "title": "The sizes of the elements and the length of finite differences", "statement": "The smallest and the largest element radius of a discretization are those over the elements of all processors and do not depend on the distribution; the default length of finite difference probes is a millionth of the smallest radius, and a warning about the contact search radius is given exactly if it is at least ten times the largest radius.", "quantifier": "every mesh with elements of positive volume, any number of processors and distribution (exact arithmetic)", "why_tests_cant": "all meshes and distributions; the length is used inside the tangent only", "anchors": ["src/io/discretization/Peridigm_ExodusDiscretization.cpp: ExodusDiscretization", "src/io/discretization/Peridigm_TextFileDiscretization.cpp: TextFileDiscretization", "src/io/discretization/Peridigm_PdQuickGridDiscretization.cpp: getDiscretization", "src/core/Peridigm.cpp: checkContactSearchRadius"]}
{"id": "C232", "title": "Which components can be used together", "statement": "An analysis with any number of blocks, materials, damage models, contact models and compute classes can be constructed exactly if it has no hypoelastic material together with a bond associated or another correspondence material, the output of the deformation gradient or the J-integral, and no bond associated material together with the Johnson-Cook or the von Mises stress damage model; otherwise the program ends with an error. Order does not matter, and once constructed every component finds each of its fields with the type it asked for.", "quantifier": "all combinations and orders of the components of the factories (options of the user for labels and the data loader aside)", "why_tests_cant": "the number of combinations is unbounded; tests use a few input decks", "anchors": ["src/core/Peridigm_Field.cpp: getFieldId", "src/core/Peridigm.cpp: Peridigm::Peridigm", "src/materials/Peridigm_MaterialFactory.cpp: create", "src/damage/Peridigm_DamageModelFactory.cpp: create", "src/materials/Peridigm_HypoelasticCorrespondenceMaterial.cpp: constructor", "src/materials/Peridigm_BondAssociatedCorrespondenceMaterial.cpp: constructor"]}
{"id": "C233", "title": "The tangent of the coupled material", "statement": "The tangent that the material \"Multiphysics Elastic\" computes for the problem with four unknowns at each point, its coordinates and its fluid pressure, is the derivative of forces and flows: each entry is the derivative of a force or a flow by a coordinate or a pressure. It can be computed exactly if every point has neighbors, none at its own position, and a weighted volume, and viscosity and horizon are not zero; otherwise the program ends with a message. Finite differences are refused.", "quantifier": "every body, deformation and pressure, with or without thermal strains, damage and surface correction, any distribution to processors (exact arithmetic)", "why_tests_cant": "all deformed bodies; a unit test compares a few numbers", "anchors": ["src/materials/Peridigm_MultiphysicsElasticMaterial.cpp: computeAutomaticDifferentiationJacobian", "src/materials/nonlocal_diffusion.cxx: computeInternalForceLinearElasticCoupled, computeInternalFluidFlow"]}
{"id": "C234", "title": "The block diagonal tangent of the coupled material", "statement": "The block diagonal tangent (\"Block 3x3\") can be assembled for the coupled material.", "quantifier": "every body, state and distribution to processors", "why_tests_cant": "all bodies and distributions", "anchors": ["src/core/Peridigm.cpp: allocateBlockDiagonalJacobian", "src/core/Peridigm_SerialMatrix.cpp: addBlockDiagonalValues", "src/materials/Peridigm_MultiphysicsElasticMaterial.cpp: computeAutomaticDifferentiationJacobian"]}
{"id": "C235", "title": "The structure of the tangent of the coupled material", "statement": "In the tangent of the coupled material the block of the pressures is the operator from pressures to flows: applied to any pressures it gives the flows these would cause; it is symmetric, negative semidefinite, with entries of the sign of diffusion off the diagonal and rows that sum to zero. Every column of the tangent sums to zero over the forces in each direction and over the flows, and translations of the body are null vectors.", "quantifier": "every body, deformation and pressure, any distribution to processors (exact arithmetic)", "why_tests_cant": "all bodies, all vectors the tangent is applied to", "anchors": ["src/materials/Peridigm_MultiphysicsElasticMaterial.cpp: computeAutomaticDifferentiationJacobian", "src/materials/nonlocal_diffusion.cxx: computeInternalForceLinearElasticCoupled, computeInternalFluidFlow"]}
{"id": "C236", "title": "A solid cylinder generated on several processors contains every cell once", "statement": "The generator of a solid cylinder, a core in every layer with rings of cells about it, gives on the processors together every cell once and in order of the ids, with the position and the volume of the cell: cores on the axis, ring cells at the middle of their part of the ring. This holds if no processor but the last ends with a core; then, and always on one processor, the data describe the mesh. It is false otherwise: the cells of a row are lost (or others repeated).", "quantifier": "every radius, length and number of rings, every number of processors (exact arithmetic)", "why_tests_cant": "all meshes and numbers of processors; where the processors cut the mesh depends on all of these", "anchors": ["src/io/mesh_input/quick_grid/QuickGrid.cxx: TensorProductSolidCylinder::computePdGridData, cellIndex"]}
{"id": "C237", "title": "A generated solid cylinder has the volume of the cylinder", "statement": "The volumes of the cells of a generated solid cylinder sum to pi R^2 L exactly, although the core is only approximated by a square in the choice of its radius, and every point lies inside the cylinder.", "quantifier": "every radius, length and number of rings (exact arithmetic)", "why_tests_cant": "all meshes", "anchors": ["src/io/mesh_input/quick_grid/QuickGrid.cxx: TensorProductSolidCylinder"]}
{"id": "C238", "title": "The volume of a bond in a box mesh", "statement": "The volume of a bond is the volume of those of the 4096 equal parts of the neighbor's cell whose middle lies within the horizon of the point. It lies between zero and the volume of the cell, is the whole for a cell within the horizon and zero for a cell outside, the same from both ends of the bond, does not decrease with the horizon and depends on the relative position only.", "quantifier": "every cell size, horizon and pair of points (exact arithmetic)", "why_tests_cant": "all positions of the neighbor; tests take a few cells of one mesh", "anchors": ["src/io/bond_volume/quick_grid/calculators.cxx: VolumeFractionCalculator::operator()", "src/io/utilities/Vector3D.h: InsideSphere"]}
{"id": "C239", "title": "The volume of a bond in a ring mesh", "statement": "The volume of a cell of a ring is computed exactly, for every center of the ring. The volume of a bond lies between zero and that of the cell and does not decrease with the horizon. In a ring about the z axis it is the whole for a cell within the horizon, zero for a cell outside, and the same when both points turn about the axis. For a ring about another line it is false: the parts of the cell are looked for about the z axis.", "quantifier": "every cell size, horizon, center and pair of points (exact arithmetic)", "why_tests_cant": "all positions; tests use rings about the origin", "anchors": ["src/io/bond_volume/quick_grid/calculators.cxx: RingVolumeFractionCalculator::operator(), cellVolume"]}
{"id": "C240", "title": "Volumes of bonds are stored in the order of the bonds", "statement": "The volumes of the bonds of all points are stored in the order in which the kernels visit the bonds, one for every bond, so that the volume at the position of a bond in the bond data is the volume of this bond; the function for one point gives those of its neighbors in their order; a list that lacks an entry is read past its end.", "quantifier": "every calculator, neighborhood list and number of points", "why_tests_cant": "all neighborhood lists, also with empty neighborhoods", "anchors": ["src/io/bond_volume/quick_grid/calculators.cxx: compute_bond_volume"]}
{"id": "C241", "title": "States computed with volumes of bonds", "statement": "With volumes of bonds, bonds stretched in the same proportion give the exact dilatation, and the norm of the deviatoric extension vanishes. With the volumes of the points as volumes of the bonds the results are those of the functions without bond volumes. The second is false for an influence function that is not the one selected: the dilatation subtracted is computed with the selected one.", "quantifier": "every neighborhood, influence function and volumes (exact arithmetic)", "why_tests_cant": "all neighborhoods and influence functions", "anchors": ["src/materials/material_utilities.cxx: WITH_BOND_VOLUME::computeWeightedVolume, computeDilatation, compute_norm_2_deviatoric_extension"]}
{"id": "C242", "title": "Plasticity of the perfectly plastic bond-associated material", "statement": "Throughout an analysis no von Mises stress of a bond or point exceeds the yield stress and plastic strains do not decrease. A step within the yield surface is elastic; one that exceeds it ends on it, with the elastic mean stress and along the elastic deviatoric stress. The von Mises stresses and triaxialities recorded are those of the new stresses. The evaluation is defined whenever that of the base class is and the shear modulus is not zero.", "quantifier": "runs of any length, all deformations, damage and time steps (exact arithmetic)", "why_tests_cant": "all deformations and histories, damaged bonds included", "anchors": ["src/materials/Peridigm_ElasticPlasticBondAssociatedCorrespondenceMaterial.cpp: computeCauchyStress", "src/materials/elastic_plastic_correspondence.cxx: updateElasticPerfectlyPlasticCauchyStress, updateBondLevelElasticPerfectlyPlasticCauchyStress (without flying point flag)"]}
{"id": "C243", "title": "Balance and objectivity of the perfectly plastic bond-associated material", "statement": "Bond stresses stay symmetric, forces and moments are balanced. A rigid motion of the deformed and yielded body changes neither unrotated stresses nor plastic strains of bonds, and a broken bond keeps both.", "quantifier": "runs of any length in which damage is reported; affinely deformed bodies for the rigid motion, neighborhoods that determine linear fields for the moments (exact arithmetic)", "why_tests_cant": "all histories; the stress before the step must lie within the yield surface", "anchors": ["src/materials/Peridigm_ElasticPlasticBondAssociatedCorrespondenceMaterial.cpp: computeCauchyStress", "src/materials/Peridigm_BondAssociatedCorrespondenceMaterial.cpp: computeForce"]}
{"id": "C244", "title": "The progress display shows the progress", "statement": "After any sequence of calls the line of the terminal holds exactly the bar of the last percentage, and lines above are untouched. The bar has the same width for all percentages and marks the part that is done. An explicit analysis displays percentages that do not decrease, from 0 to 100, the whole percents of the steps done, at most 200 of them; solvers run one after the other leave one complete line each.", "quantifier": "all titles without control characters, all sequences of percentages up to 100, all numbers of steps and solvers", "why_tests_cant": "all sequences of calls: an error in the number of backspaces shows only for some lengths", "anchors": ["src/core/Peridigm.cpp: Peridigm::displayProgress", "src/core/Peridigm.cpp: Peridigm::executeExplicit"]}
{"id": "C245", "title": "The file of the interfaces describes the interfaces", "statement": "The elements of the interface file are the interfaces, and their corners, read through the maps of the file, are the nodes of the interfaces with their positions. The values written for an element belong to the interface that it is, and its number is that of the interface. Interfaces that are neither triangles nor quadrilaterals end the program.", "quantifier": "all lists of interfaces and meshes, one processor", "why_tests_cant": "all orders of triangles and quadrilaterals; the numbers agree in meshes with one kind of face", "anchors": ["src/core/Peridigm_InterfaceData.cpp: InterfaceData::Initialize", "src/core/Peridigm_InterfaceData.cpp: InterfaceData::InitializeExodusOutput", "src/core/Peridigm_InterfaceData.cpp: InterfaceData::WriteExodusOutput"]}
{"id": "C246", "title": "Every processor sees one mesh", "statement": "Each processor stores the part of the mesh in its file. After ghosting it finds exactly the elements of its overlap map, own and ghosts, with the nodes and positions that they have in the whole mesh, whichever processors the imports take shared elements and nodes from. The neighbor lists that the processors compute with their own meshes are therefore those of one mesh (C124). A ghost that no processor has read ends the program.", "quantifier": "all meshes, all divisions into files with shared nodes, all decompositions of the search, all choices of sources of the imports", "why_tests_cant": "all decompositions: with one processor there are no ghosts, and with few shared nodes every choice of source agrees", "anchors": ["src/io/discretization/Peridigm_ExodusDiscretization.cpp: ExodusDiscretization::ghostExodusMeshData", "src/io/discretization/Peridigm_ExodusDiscretization.cpp: ExodusDiscretization::getExodusMeshNodePositions", "src/io/discretization/Peridigm_ExodusDiscretization.cpp: ExodusDiscretization::loadData"]}
{"id": "C247", "title": "A generated mesh reaches the analysis unchanged", "statement": "A PdQuickGrid input with at least as many cells as processors gives a discretization in which, however points were moved by load balancing, every cell is owned by exactly one processor, with the position and volume of the cell, the horizon, block 1, and (through pointer array, local list and overlap map) the neighbors generated for it; for a box with spherical neighborhoods these are, each once, the other points nearer than the horizon. The overlap map lists exactly the owned points and their neighbors, the bond map the numbers of neighbors, and block_1 all points. Other types, bond filters, variable horizons and missing generators are refused. With more processors than cells no discretization is made.", "quantifier": "all boxes and cylinders, all numbers of processors, all migrations of points that keep what Zoltan promises", "why_tests_cant": "all migrations: tests run on few processors with the partition that Zoltan happens to choose", "anchors": ["src/io/discretization/Peridigm_PdQuickGridDiscretization.cpp: PdQuickGridDiscretization::PdQuickGridDiscretization", "src/io/discretization/Peridigm_PdQuickGridDiscretization.cpp: PdQuickGridDiscretization::getDiscretization", "src/io/pdneigh/PdZoltan.cxx: getLoadBalancedDiscretization"]}
{"id": "C248", "title": "The quantities of a record agree with one another", "statement": "In every record of the output file every requested quantity is its function of the fields in the same record, and every reduction over a block, a node set or to a point is the reduction of its variable in the same record; nothing is left from an earlier time. Output sections that write at the same time write the same values. Writing changes no field of the analysis but the acceleration.", "quantifier": "all sets of output variables and compute class parameters in all orders, all functions of the fields, all values before", "why_tests_cant": "the order of the compute objects depends on the names in the input; a stale value shows only for some orders and only from the second record on", "anchors": ["src/core/Peridigm_ComputeManager.cpp: ComputeManager::ComputeManager", "src/core/Peridigm_ComputeManager.cpp: ComputeManager::compute", "src/compute/Peridigm_Compute_Block_Data.cpp: Compute_Block_Data", "src/compute/Peridigm_Compute_Stored_Elastic_Energy.cpp: Compute_Stored_Elastic_Energy::compute", "src/io/Peridigm_OutputManager_ExodusII.cpp: OutputManager_ExodusII::write"]}
{"id": "C249", "title": "The boundary condition section of the input means what it says", "statement": "Every entry of the section is a node set, a condition, or the reason for a message; no condition is dropped, and conditions keep their order. Types, coordinates and node set names are recognised whatever their case, with blanks or underscores. A condition without a coordinate acts on x, and one on a scalar field must not name y or z. Node sets hold the numbers listed in the input or in a file, every processor keeps its own, and a name that occurs twice is refused. A value given as a text is the function of position and time; one given as a number is that number.", "quantifier": "all sections with any number of entries, all texts, all files, all meshes with node sets", "why_tests_cant": "tests use a few input files; spelling, order, number of digits and the content of node files vary without bound", "anchors": ["src/core/Peridigm_BoundaryAndInitialConditionManager.cpp: BoundaryAndInitialConditionManager::initialize", "src/core/Peridigm_BoundaryAndInitialConditionManager.cpp: BoundaryAndInitialConditionManager::initializeNodeSets", "src/core/Peridigm_BoundaryAndInitialConditionManager.cpp: BoundaryAndInitialConditionManager::nodeSetStringToFileName", "src/core/Peridigm_BoundaryCondition.cpp: BoundaryCondition::BoundaryCondition", "src/core/Peridigm_Enums.cpp: tidy_string", "src/core/Peridigm_Enums.cpp: to_boundary_condition_type"]}
{"id": "C250", "title": "A boundary condition takes the value its function has at the time asked for", "statement": "The value of a condition at a point and a time is the one its text gives for this position and this time; it does not depend on what was evaluated before.", "quantifier": "all functions of position and time, all points, all pairs of times", "why_tests_cant": "tests use functions that assign the value in one line; what a function leaves in its variables shows only in a second evaluation at another time", "anchors": ["src/core/Peridigm_BoundaryCondition.cpp: BoundaryCondition::evaluateParser"]}
{"id": "C251", "title": "The output sections of the input mean what they say", "statement": "Every entry of the input whose name contains the word Output is a section of its own with its own file. The input is accepted exactly if all sections are usable; each file then has the name, the variables, the frequency and the first and last step of its section, or the documented defaults, and gets its records whatever the other sections say. The documented options (Bond Family, ASCII) can be used, and different sections have different files.", "quantifier": "all inputs with any number of sections and entries, all sets of registered fields, all numbers of processors, all runs", "why_tests_cant": "tests have one or two well-formed sections; misspelt entries, several sections and their interplay have no bound", "anchors": ["src/core/Peridigm.cpp: Peridigm::initializeOutputManager", "src/io/Peridigm_OutputManager_ExodusII.cpp: OutputManager_ExodusII::OutputManager_ExodusII", "src/io/Peridigm_OutputManager_ExodusII.cpp: OutputManager_ExodusII::getValidParameterList", "src/io/Peridigm_OutputManagerContainer.hpp: OutputManagerContainer::write"]}
{"id": "C252", "title": "The back extension of the viscoelastic material is integrated exactly", "statement": "Within a time step the back extension of every bond is the exact solution of its rate equation, with the deviatoric extension going linearly from its old to its new value: it is where every solution of the equation that begins with the stored value ends. Subdividing a step along a linear path therefore changes neither back extensions nor forces.", "quantifier": "all configurations, neighborhoods, material constants, step lengths and stored states for which the material is evaluated", "why_tests_cant": "tests compare single steps with tabulated numbers; that the update solves the differential equation, and that steps can be subdivided, is a statement about all steps", "anchors": ["src/materials/viscoelastic.cxx: computeInternalForceViscoelasticStandardLinearSolid", "src/materials/Peridigm_ViscoelasticMaterial.cpp: ViscoelasticMaterial::computeForce"]}
{"id": "C253", "title": "A viscoelastic body that is held relaxes exponentially, whatever the time steps", "statement": "While a body is held in a configuration, the difference of back extension and deviatoric extension of each bond is multiplied by exp(-T/tau) over the time T; two ways of dividing the same time into steps lead to the same back extensions and the same forces.", "quantifier": "all histories before, all configurations and all sequences of steps of any positive lengths", "why_tests_cant": "sequences of steps have no bound", "anchors": ["src/materials/viscoelastic.cxx: computeInternalForceViscoelasticStandardLinearSolid", "src/materials/Peridigm_ViscoelasticMaterial.cpp: ViscoelasticMaterial::computeForce"]}
{"id": "C254", "title": "Held, the viscoelastic material is the elastic material with the relaxation modulus", "statement": "Without relaxation (lambda_i = 0) the viscoelastic material has the forces of the elastic material with the same moduli after any history. Loaded from rest within a step and held for the time T it has the forces of the elastic material with shear modulus mu (1 - lambda (1 - (1 - beta) exp(-T/tau))), beta at most dt/(2 tau); whatever the history, while held it approaches the elastic material with shear modulus (1 - lambda) mu exponentially.", "quantifier": "all influence functions that are constant on the bonds, all configurations with any damage, all histories and all sequences of steps", "why_tests_cant": "the comparison of two materials over all configurations and histories has no bound", "anchors": ["src/materials/viscoelastic.cxx: computeInternalForceViscoelasticStandardLinearSolid", "src/materials/Peridigm_ViscoelasticMaterial.cpp: ViscoelasticMaterial::computeForce", "src/materials/elastic.cxx: computeInternalForceLinearElastic"]}
{"id": "C255", "title": "Explicit dynamics conserves angular momentum", "statement": "In a run of explicit dynamics without boundary conditions whose forces exert no moment at the current positions, the angular momentum of the body about any fixed point is the same after every step; the LPS material on one processor gives such forces.", "quantifier": "all bodies, densities, volumes, initial velocities, step lengths and numbers of steps; all materials with momentless forces", "why_tests_cant": "a run has no bound on its number of steps; tests check single steps", "anchors": ["src/core/Peridigm.cpp: Peridigm::executeExplicit", "src/materials/elastic.cxx: computeInternalForceLinearElastic"]}
{"id": "C256", "title": "Explicit dynamics of the linear material conserves a discrete energy and is stable below the frequency limit", "statement": "For forces of the linear LPS material with fixed damage the quantity kinetic energy + strain energy - dt^2/8 times the squared acceleration, weighted by mass, is the same after every step. If dt is at most two over the largest frequency of the body, the kinetic energy never exceeds the initial energy.", "quantifier": "all bodies on one processor, all influence functions, damages, initial states, step lengths and numbers of steps", "why_tests_cant": "conservation over runs of any length and stability for every body below a limit cannot be sampled", "anchors": ["src/core/Peridigm.cpp: Peridigm::executeExplicit", "src/materials/Peridigm_LinearLPSPVMaterial.cpp: LinearLPSPVMaterial::computeForce"]}
{"id": "C257", "title": "Runs with the critical time step are stable", "statement": "A run of explicit dynamics with the critical time step computed by the code, times a safety factor of at most one, has bounded displacements.", "quantifier": "all bodies of the linear LPS material, all safety factors up to one, all initial states and numbers of steps", "why_tests_cant": "stability is a statement about runs of any length and all bodies", "anchors": ["src/core/Peridigm.cpp: Peridigm::executeExplicit", "src/core/Peridigm_CriticalTimeStep.cpp: ComputeCriticalTimeStep", "src/materials/Peridigm_LinearLPSPVMaterial.cpp: LinearLPSPVMaterial::computeForce"]}
{"id": "C258", "title": "Implicit dynamics with average acceleration conserves energy", "statement": "With beta = 1/4 and gamma = 1/2 the sum of kinetic and stored energy of a body of the linear LPS material changes in a step only by the work of the forces that are missing for the balance of momentum; a run whose iterations converge keeps its energy up to the tolerance, and with tolerance zero exactly, for steps of any length.", "quantifier": "all bodies on one processor, all states, step lengths, tolerances and numbers of steps; any linear solver", "why_tests_cant": "conservation over runs of any length and stability for steps of any length cannot be sampled", "anchors": ["src/core/Peridigm.cpp: Peridigm::executeImplicit", "src/materials/Peridigm_LinearLPSPVMaterial.cpp: LinearLPSPVMaterial::computeForce"]}
{"id": "C259", "title": "Explicit dynamics does not depend on the frame", "statement": "With a material whose forces are objective, a body that begins rotated or reflected, translated and with an additional uniform velocity c has an analysis whenever the original body has one, and at every step is where the original body is, rotated, translated and moved on by c times the time; velocities and accelerations follow. The state-based elastic material is such a material.", "quantifier": "all bodies, all objective materials with or without history, all rotations, reflections, translations and velocities, all initial states, step lengths and numbers of steps, without boundary conditions", "why_tests_cant": "the statement is about pairs of runs of any length", "anchors": ["src/core/Peridigm.cpp: Peridigm::executeExplicit", "src/materials/elastic.cxx: computeInternalForceLinearElastic"]}
{"id": "C260", "title": "Quasi-static solutions of the linear material do not depend on how they are found", "statement": "Two quasi-static analyses of a body of the linear LPS material under the same boundary conditions and body forces, with whatever load steps, solvers, heuristics, adaptive stepping and initial guesses, agree in every completed load step with the same time: the work of the forces of the difference of their displacements against this difference is bounded by the two tolerances times the size of the difference, and with exact solves the difference keeps the length of every bond to first order, so no bond stretches differently; every displacement that the boundary conditions and the lengths of the bonds determine is the same in both.", "quantifier": "all bodies, positive moduli, boundary conditions on displacements, body forces, initial states that meet the prescribed displacements, load step lists, parameters and numerical solvers, runs of any length", "why_tests_cant": "the statement is about pairs of runs with arbitrary solvers and load steps", "anchors": ["src/core/Peridigm.cpp: Peridigm::executeQuasiStatic", "src/core/Peridigm.cpp: Peridigm::computeQuasiStaticResidual", "src/materials/Peridigm_LinearLPSPVMaterial.cpp: LinearLPSPVMaterial::computeForce"]}
{"id": "C261", "title": "Quasi-static solutions of the linear material minimise the potential energy", "statement": "In every completed load step of a quasi-static analysis of a body of the linear LPS material, the potential energy (half the work of the internal forces on the way back, less the work of the external forces of the record) is at most that of any other displacements with the values prescribed at that time, up to the tolerance times the distance; with an exact solve, displacements with the prescribed values whose potential energy is not greater give every bond the same length to first order.", "quantifier": "all bodies, positive moduli, boundary conditions on displacements, body forces, initial states that meet the prescribed displacements, load step lists, parameters and numerical solvers, runs of any length, all competing displacements", "why_tests_cant": "the minimum is over all displacements, and runs and solvers are arbitrary", "anchors": ["src/core/Peridigm.cpp: Peridigm::executeQuasiStatic", "src/core/Peridigm.cpp: Peridigm::computeQuasiStaticResidual", "src/materials/Peridigm_LinearLPSPVMaterial.cpp: LinearLPSPVMaterial::computeForce"]}
{"id": "C262", "title": "Explicit dynamics of the linear material superposes", "statement": "If a body of the linear LPS material begins with a linear combination of the displacements and velocities of two other analyses, then at every step its displacements, velocities and accelerations are the same combination of theirs.", "quantifier": "all bodies, moduli, damage, initial states, factors, step lengths and numbers of steps, without boundary conditions", "why_tests_cant": "the statement is about triples of runs of any length", "anchors": ["src/core/Peridigm.cpp: Peridigm::executeExplicit", "src/materials/Peridigm_LinearLPSPVMaterial.cpp: LinearLPSPVMaterial::computeForce"]}
{"id": "C263", "title": "Disturbances travel at most two horizons in a step", "statement": "In explicit dynamics of the linear LPS material, displacement, velocity and acceleration of a point after n steps do not depend on the initial displacements and velocities of points that cannot be reached from it in n + 1 jumps between points of one neighborhood, in particular not on points farther away than 2 (n + 1) times the length of the longest bond.", "quantifier": "all bodies, moduli, damage, pairs of initial states, step lengths and numbers of steps, without boundary conditions", "why_tests_cant": "the statement is about pairs of runs of any length on arbitrary meshes", "anchors": ["src/core/Peridigm.cpp: Peridigm::executeExplicit", "src/materials/Peridigm_LinearLPSPVMaterial.cpp: LinearLPSPVMaterial::precompute, computeForce"]}
{"id": "C264", "title": "Explicit dynamics leaves an undeformed body undeformed", "statement": "A body of the state-based elastic material that begins undeformed, in any rotated, reflected or shifted position and with the same velocity everywhere, possibly zero, can be computed for any number of steps without a division by zero, has no acceleration at any time and is after every step where its velocity takes it.", "quantifier": "all bodies whose bonded points do not coincide and have a weighted volume, all rigid positions, velocities, moduli, step lengths and numbers of steps, without boundary conditions and temperature changes", "why_tests_cant": "the statement is about runs of any length of any body", "anchors": ["src/core/Peridigm.cpp: Peridigm::executeExplicit", "src/materials/elastic.cxx: computeInternalForceLinearElastic"]}
{"id": "C265", "title": "Quasi-static solutions of the linear material superpose", "statement": "If the prescribed displacements and body forces of a completed load step of a body of the linear LPS material are linear combinations of those of two other completed load steps, of the same or other analyses with whatever solvers and load steps, and everything held there is held here, then its displacements are the same combination wherever the boundary conditions and the lengths of the bonds determine them.", "quantifier": "all bodies, positive moduli, boundary conditions on displacements, body forces, factors, load step lists, parameters and numerical solvers that solve exactly, runs of any length", "why_tests_cant": "the statement is about triples of runs with arbitrary solvers and loads", "anchors": ["src/core/Peridigm.cpp: Peridigm::executeQuasiStatic", "src/core/Peridigm.cpp: Peridigm::computeQuasiStaticResidual", "src/materials/Peridigm_LinearLPSPVMaterial.cpp: LinearLPSPVMaterial::computeForce"]}
{"id": "C266", "title": "Quasi-static solutions of the linear material are reciprocal", "statement": "Of two completed load steps of a body of the linear LPS material under different body forces, each with zero displacements where the other analysis prescribes displacements, the body forces of the first do the same work on the displacements of the second as those of the second on the displacements of the first.", "quantifier": "all bodies, moduli, boundary conditions on displacements, body forces, load step lists, parameters and numerical solvers that solve exactly, runs of any length", "why_tests_cant": "the statement is about pairs of runs with arbitrary solvers and loads", "anchors": ["src/core/Peridigm.cpp: Peridigm::executeQuasiStatic", "src/core/Peridigm.cpp: Peridigm::computeQuasiStaticResidual", "src/materials/Peridigm_LinearLPSPVMaterial.cpp: LinearLPSPVMaterial::computeForce"]}
{"id": "C267", "title": "Implicit dynamics of the linear material superposes and does not depend on the solver", "statement": "If every step is solved exactly, a body of the linear LPS material that begins with a linear combination of the displacements, velocities and accelerations of two other analyses has the same combination of theirs after every step; in particular analyses that begin alike stay alike, whatever solvers are used and however long the steps are.", "quantifier": "all bodies, positive moduli, densities, damage, initial states, factors, step lengths, positive beta, all gamma and numbers of steps, without boundary conditions; all numerical solvers that solve exactly", "why_tests_cant": "the statement is about triples of runs of any length with arbitrary solvers", "anchors": ["src/core/Peridigm.cpp: Peridigm::executeImplicit", "src/materials/Peridigm_LinearLPSPVMaterial.cpp: LinearLPSPVMaterial::computeForce"]}
{"id": "C268", "title": "Implicit dynamics conserves linear momentum", "statement": "In implicit dynamics without boundary conditions and body forces, with any material whose internal forces sum to zero, the total linear momentum of a new analysis changes by at most the time passed times the tolerance divided by beta dt^2 times the volume of the body, provided all iterations converge; with exact solves the center of mass moves with constant velocity.", "quantifier": "all bodies, materials with or without history, densities, initial states whose accelerations sum to zero, positive beta, gamma between zero and one, step lengths, tolerances, numerical solvers and numbers of steps", "why_tests_cant": "the statement is about runs of any length with arbitrary solvers", "anchors": ["src/core/Peridigm.cpp: Peridigm::executeImplicit"]}
{"id": "C269", "title": "Reactions carry the load", "statement": "In every completed load step of a quasi-static analysis, with any material whose internal forces sum to zero - the elastic and the linear LPS material are such - the reactions - the internal force at the final positions on prescribed degrees of freedom - weighted with the volumes, sum in every direction to the body forces on degrees of freedom that are not prescribed, up to 100/21 of the tolerance for every point.", "quantifier": "all bodies, boundary conditions, body forces, load steps, tolerances up to 1e48 and numerical solvers", "why_tests_cant": "the statement is about all supports, loads and materials, and about what arbitrary solvers leave over", "anchors": ["src/core/Peridigm.cpp: Peridigm::executeQuasiStatic", "src/core/Peridigm_BoundaryAndInitialConditionManager.cpp: applyKinematicBC_ComputeReactions"]}
