{
 "claims": [
  {
   "property": "C01",
   "status": "proved",
   "theorems": [
    "Verif.Field.C01_field_ids"
   ],
   "note": ""
  },
  {
   "property": "C02",
   "status": "proved",
   "theorems": [
    "Verif.Field.C02_accepted_iff",
    "Verif.Field.C02_labels"
   ],
   "note": ""
  },
  {
   "property": "C03",
   "status": "proved",
   "theorems": [
    "Verif.Data.C03_two_step_shift",
    "Verif.Data.C03_write_exact",
    "Verif.Data.C05_update_total"
   ],
   "note": ""
  },
  {
   "property": "C04",
   "status": "proved",
   "theorems": [
    "Verif.Data.C04_stateless"
   ],
   "note": ""
  },
  {
   "property": "C05",
   "status": "proved",
   "theorems": [
    "Verif.Data.C05_shared",
    "Verif.Data.C05_shift_once",
    "Verif.Data.C05_update_total"
   ],
   "note": ""
  },
  {
   "property": "C06",
   "status": "partial",
   "theorems": [
    "Verif.Data.C06_hasData_agrees_partial",
    "Verif.Data.C06_own_storage",
    "Verif.Data.C06_requested_available",
    "Verif.Data.C06_hasData_can_crash",
    "Verif.Data.C06_getData_can_crash"
   ],
   "note": "False as stated: hasData and getData dereference a null state, and getData indexes past the end of a vector. The agreement holds when the state object exists."
  },
  {
   "property": "C07",
   "status": "proved",
   "theorems": [
    "Verif.Redist.C07_copy_by_gid",
    "Verif.Redist.C07_copy_manager",
    "Verif.Redist.C07_copy_mixes_fields"
   ],
   "note": "Holds between managers with the same field lists; C07_copy_mixes_fields shows that the code checks only the number of columns."
  },
  {
   "property": "C08",
   "status": "proved",
   "theorems": [
    "Verif.Redist.C08_points_keep_data",
    "Verif.Redist.C08_bonds_keep_data",
    "Verif.Redist.C08_null_state_crashes"
   ],
   "note": "For every choice Epetra_Import may make among the holders of an id. Managers with a null state crash (C08_null_state_crashes)."
  },
  {
   "property": "C09",
   "status": "proved",
   "theorems": [
    "Verif.Neigh.C09_unique",
    "Verif.Neigh.C09_visits",
    "Verif.Neigh.C09_pointer",
    "Verif.Neigh.C09_no_slack"
   ],
   "note": ""
  },
  {
   "property": "C10",
   "status": "proved",
   "theorems": [
    "Verif.Neigh.C10_block_neighbors",
    "Verif.Neigh.C10_block_bonds"
   ],
   "note": "From the grid data of the discretization to the block lists."
  },
  {
   "property": "C100",
   "status": "proved",
   "theorems": [
    "Verif.Outputs.C100_force",
    "Verif.Outputs.C100_neighborhoods",
    "Verif.Outputs.C100_partial_volumes",
    "Verif.Outputs.C100_force_refused"
   ],
   "note": "For all neighborhood lists; exact real arithmetic."
  },
  {
   "property": "C101",
   "status": "partial",
   "theorems": [
    "Verif.Outputs.C101_partial",
    "Verif.Outputs.C101_steps",
    "Verif.Outputs.C101_early",
    "Verif.Outputs.C101_default",
    "Verif.Outputs.C101_none"
   ],
   "note": "False of the code if the step before the initial output step is a multiple of the frequency: it is written too (proved for all such schedules). The exact set of steps is proved for all parameters below the largest int."
  },
  {
   "property": "C102",
   "status": "partial",
   "theorems": [
    "Verif.Outputs.C102_partial",
    "Verif.Outputs.C102_steps",
    "Verif.Outputs.C102_shift"
   ],
   "note": "False of the code for later solvers unless the frequency divides the number of configurations before: the initial configuration of each solver is counted again, which shifts the steps written (proved)."
  },
  {
   "property": "C103",
   "status": "partial",
   "theorems": [
    "Verif.Diffusion.C103_partial",
    "Verif.Diffusion.C103_broken_one_sided",
    "Verif.Diffusion.C103_broken_blocks",
    "Verif.Diffusion.C103_broken_weights"
   ],
   "note": "Proved for mutual neighborhoods, one coefficient and horizon, and cell volumes as weights. False of the code otherwise: each point adds only its own end of a bond (negations proved for one-sided neighborhoods, blocks with different coefficients, stored quadrature weights)."
  },
  {
   "property": "C104",
   "status": "proved",
   "theorems": [
    "Verif.Diffusion.C104_uniform",
    "Verif.Diffusion.C104_hot",
    "Verif.Diffusion.C104_cold",
    "Verif.Diffusion.C104_defined",
    "Verif.Diffusion.C104_scale",
    "Verif.Diffusion.C104_weights"
   ],
   "note": "For positive coefficients, horizons and weights. Exact real arithmetic."
  },
  {
   "property": "C105",
   "status": "proved",
   "theorems": [
    "Verif.Diffusion.C105_bounds",
    "Verif.Diffusion.C105_unique",
    "Verif.Diffusion.C105_needs_anchor"
   ],
   "note": "For positive coefficients, horizons and weights. About fields with zero flux divergence; the solver reaches them up to its tolerance. Exact real arithmetic."
  },
  {
   "property": "C106",
   "status": "proved",
   "theorems": [
    "Verif.Diffusion.C106_mass",
    "Verif.Diffusion.C106_rest",
    "Verif.Diffusion.C106_high",
    "Verif.Diffusion.C106_defined",
    "Verif.Diffusion.C106_scale",
    "Verif.Diffusion.C106_flows"
   ],
   "note": "For all neighborhoods; the direction for physical constants and non-negative volumes. Exact real arithmetic."
  },
  {
   "property": "C107",
   "status": "partial",
   "theorems": [
    "Verif.Diffusion.C107_partial",
    "Verif.Diffusion.C107_opposite",
    "Verif.Diffusion.C107_broken"
   ],
   "note": "Proved for alpha at most zero. For positive alpha, as in the regression test, the code does the opposite: damage reduces the flow (proved for all bodies, strictly for a body of two points and every positive alpha)."
  },
  {
   "property": "C108",
   "status": "proved",
   "theorems": [
    "Verif.Diffusion.C108_momentum",
    "Verif.Diffusion.C108_elastic",
    "Verif.Diffusion.C108_virial",
    "Verif.Diffusion.C108_defined",
    "Verif.Diffusion.C108_flow"
   ],
   "note": "Exact real arithmetic."
  },
  {
   "property": "C109",
   "status": "proved",
   "theorems": [
    "Verif.Diffusion.C109_balance",
    "Verif.Diffusion.C109_dissipation",
    "Verif.Diffusion.C109_components",
    "Verif.Diffusion.C109_defined"
   ],
   "note": "The last part for mutual neighborhoods. Exact real arithmetic."
  },
  {
   "property": "C11",
   "status": "proved",
   "theorems": [
    "Verif.Neigh.C11_partition",
    "Verif.Neigh.C11_maps",
    "Verif.Neigh.C11_bond_storage"
   ],
   "note": ""
  },
  {
   "property": "C110",
   "status": "partial",
   "theorems": [
    "Verif.Thermal.C110_times",
    "Verif.Thermal.C110_balance",
    "Verif.Thermal.C110_tolerance",
    "Verif.Thermal.C110_prescribed",
    "Verif.Thermal.C110_unmoved",
    "Verif.Thermal.C110_initial",
    "Verif.Thermal.C110_initial_prescribed",
    "Verif.Thermal.C110_time_zero",
    "Verif.Thermal.C110_defined"
   ],
   "note": "Proved for temperatures as the only unknowns. Exceptions proved of the code: initial temperatures replace prescribed ones in the first output; a load step ending at time zero cannot be computed; with a tolerance above 1e48 a failed linear solve is accepted. Evaluation and linear solver are arbitrary functions. Exact real arithmetic."
  },
  {
   "property": "C111",
   "status": "partial",
   "theorems": [
    "Verif.Thermal.C111_partial",
    "Verif.Thermal.C111_broken",
    "Verif.Thermal.C111_reactions"
   ],
   "note": "Proved for temperatures as the only unknowns. False of the code when displacements are unknowns too, which is the default: displacement increments are added to temperatures (negation proved), and a relative tolerance reads reactions out of bounds."
  },
  {
   "property": "C112",
   "status": "proved",
   "theorems": [
    "Verif.Thermal.C112_attempt",
    "Verif.Thermal.C112_completes",
    "Verif.Thermal.C112_steady",
    "Verif.Thermal.C112_bounds"
   ],
   "note": "For one processor that owns the whole mesh, temperatures as the only unknowns, positive coefficients. Exactness of the linear solver is a hypothesis. Exact real arithmetic."
  },
  {
   "property": "C113",
   "status": "partial",
   "theorems": [
    "Verif.Grid.C113_cells",
    "Verif.Grid.C113_volume",
    "Verif.Grid.C113_inside",
    "Verif.Grid.C113_defined",
    "Verif.Grid.C113_delivered",
    "Verif.Grid.C113_too_many"
   ],
   "note": "Delivery is proved when there are at least as many cells as processors; otherwise processors are left with unfilled grid data (proved). Load balancing: C128 and C247. Exact arithmetic, no overflow."
  },
  {
   "property": "C114",
   "status": "partial",
   "theorems": [
    "Verif.Grid.C114_spherical",
    "Verif.Grid.C114_default_partial",
    "Verif.Grid.C114_default_broken",
    "Verif.Grid.C114_symmetric"
   ],
   "note": "Proved as stated with NeighborhoodType Spherical. Without that setting, which is the default, every point within the horizon is listed once but farther points are listed too (negation proved). Exact arithmetic."
  },
  {
   "property": "C115",
   "status": "proved",
   "theorems": [
    "Verif.Grid.C115_box",
    "Verif.Grid.C115_cylinder",
    "Verif.Grid.C115_reads",
    "Verif.Grid.C115_ring_reads"
   ],
   "note": "Integers do not overflow in the model."
  },
  {
   "property": "C116",
   "status": "partial",
   "theorems": [
    "Verif.Grid.C116_cells_partial",
    "Verif.Grid.C116_volume",
    "Verif.Grid.C116_inside_partial",
    "Verif.Grid.C116_center_broken",
    "Verif.Grid.C116_center_ignored",
    "Verif.Grid.C116_defined"
   ],
   "note": "Proved for a cylinder about the z axis. False of the code for other centers: the center is ignored (negation proved). Exact arithmetic."
  },
  {
   "property": "C117",
   "status": "partial",
   "theorems": [
    "Verif.Grid.C117_neighbors_partial",
    "Verif.Grid.C117_missed",
    "Verif.Grid.C117_twice"
   ],
   "note": "Proved: what is listed is within the horizon, bonds come in pairs, nothing is listed twice if the reach is less than half the circumference. False of the code: neighbors are missed, and listed twice for larger reaches (negations proved). Exact arithmetic."
  },
  {
   "property": "C118",
   "status": "proved",
   "theorems": [
    "Verif.Geometry.C118_tet",
    "Verif.Geometry.C118_hex_volume",
    "Verif.Geometry.C118_hex_refused",
    "Verif.Geometry.C118_hex_same",
    "Verif.Geometry.C118_hex_defined",
    "Verif.Geometry.C118_hex_centroid",
    "Verif.Geometry.C118_hex_hull",
    "Verif.Geometry.C118_additive",
    "Verif.Geometry.C118_brick",
    "Verif.Geometry.C118_affine",
    "Verif.Geometry.C118_mirror",
    "Verif.Geometry.C118_flat"
   ],
   "note": "Exact arithmetic. The centroid is that of the solid bounded by the 24 triangles of the surface. For an element without volume the code divides by zero (C118_flat)."
  },
  {
   "property": "C119",
   "status": "partial",
   "theorems": [
    "Verif.Geometry.C119_inside",
    "Verif.Geometry.C119_outside",
    "Verif.Geometry.C119_intersects_partial",
    "Verif.Geometry.C119_far",
    "Verif.Geometry.C119_crossing",
    "Verif.Geometry.C119_degenerate"
   ],
   "note": "The claim about intersecting triangles is proved if the nodes are not on a line; for degenerate triangles it is false of the code (negation proved). Exact arithmetic."
  },
  {
   "property": "C12",
   "status": "proved",
   "theorems": [
    "Verif.Assembly.C12_total",
    "Verif.Assembly.C12_order",
    "Verif.Assembly.C12_fresh"
   ],
   "note": "Exact addition in a commutative monoid."
  },
  {
   "property": "C120",
   "status": "partial",
   "theorems": [
    "Verif.Geometry.C120_tet_defined",
    "Verif.Geometry.C120_tet_inside",
    "Verif.Geometry.C120_tet_intersects",
    "Verif.Geometry.C120_tet_faces",
    "Verif.Geometry.C120_tet_outside_partial",
    "Verif.Geometry.C120_tet_broken",
    "Verif.Geometry.C120_hex_defined",
    "Verif.Geometry.C120_hex_inside",
    "Verif.Geometry.C120_hex_intersects_partial",
    "Verif.Geometry.C120_hex_surface",
    "Verif.Geometry.C120_hex_outside_partial",
    "Verif.Geometry.C120_hex_far",
    "Verif.Geometry.C120_hex_broken"
   ],
   "note": "Outside is proved if the center of the sphere is not in the element; an element that contains the whole sphere is reported to be outside (negation proved). Hexahedra: the solid bounded by the 24 triangles, not distorted. Exact arithmetic."
  },
  {
   "property": "C121",
   "status": "partial",
   "theorems": [
    "Verif.Search.C121_delivers",
    "Verif.Search.C121_sound",
    "Verif.Search.C121_exact_partial",
    "Verif.Search.C121_mutual_partial",
    "Verif.Search.C121_refused"
   ],
   "note": "Exact lists are proved for one radius and a decomposition whose parts are separated by planes; with different radii, or points of two processors on one cutting plane, points can be missing (negations proved with C15). Zoltan is a parameter. Exact arithmetic."
  },
  {
   "property": "C122",
   "status": "partial",
   "theorems": [
    "Verif.Mesh.C122_points",
    "Verif.Mesh.C122_duplicate",
    "Verif.Mesh.C122_unknown",
    "Verif.Mesh.C122_ids",
    "Verif.Mesh.C122_broken"
   ],
   "note": "Proved for files whose blocks of spheres have two attributes; the number of attributes is not checked, and with one the code reads beyond the end (negation proved). The Exodus library is an input. Exact arithmetic."
  },
  {
   "property": "C123",
   "status": "proved",
   "theorems": [
    "Verif.Mesh.C123_sets",
    "Verif.Mesh.C123_duplicate"
   ],
   "note": "Node sets only; side sets of the file are ignored by the code."
  },
  {
   "property": "C124",
   "status": "partial",
   "theorems": [
    "Verif.Mesh.C124_nodes",
    "Verif.Mesh.C124_dimension",
    "Verif.Mesh.C124_exact_partial",
    "Verif.Mesh.C124_geometric_partial",
    "Verif.Mesh.C124_broken",
    "Verif.Mesh.C124_off",
    "Verif.Mesh.C124_only_hexahedra"
   ],
   "note": "Proved for hexahedra that are not distorted, one horizon and a decomposition separated by planes; elements that contain the whole horizon are dropped (C120), and with Construct Interfaces given as false the program ends (negation proved). Exact arithmetic."
  },
  {
   "property": "C125",
   "status": "partial",
   "theorems": [
    "Verif.Mesh.C125_all_partial",
    "Verif.Mesh.C125_none",
    "Verif.Mesh.C125_refused",
    "Verif.Mesh.C125_undefined",
    "Verif.Mesh.C125_broken",
    "Verif.Mesh.C125_text_partial"
   ],
   "note": "Proved for block ids from 1 to the number of blocks; for other ids the matrix is accessed outside its bounds (negation proved)."
  },
  {
   "property": "C126",
   "status": "partial",
   "theorems": [
    "Verif.Mesh.C126_points",
    "Verif.Mesh.C126_sound",
    "Verif.Mesh.C126_block_unique",
    "Verif.Mesh.C126_refused",
    "Verif.Mesh.C126_empty",
    "Verif.Mesh.C126_broken"
   ],
   "note": "A line of blanks only ends the program although an empty one is ignored (negation proved); everything else is proved. How the library reads a number is a parameter."
  },
  {
   "property": "C127",
   "status": "partial",
   "theorems": [
    "Verif.Mesh.C127_names",
    "Verif.Mesh.C127_blocks_partial",
    "Verif.Mesh.C127_broken"
   ],
   "note": "Proved for block ids of at most six digits; with more the program ends (negation proved)."
  },
  {
   "property": "C128",
   "status": "partial",
   "theorems": [
    "Verif.Balance.C128_exact",
    "Verif.Balance.C128_permutation",
    "Verif.Balance.C128_size",
    "Verif.Balance.C128_twice_broken"
   ],
   "note": "Proved for grids that were not balanced before, which is how the code is called; a grid balanced twice can keep points it exported (negation proved). Zoltan and MPI are parameters: any consistent export lists."
  },
  {
   "property": "C129",
   "status": "proved",
   "theorems": [
    "Verif.Hardening.C129_yield",
    "Verif.Hardening.C129_elastic",
    "Verif.Hardening.C129_flow",
    "Verif.Hardening.C129_defined",
    "Verif.Hardening.C129_history"
   ],
   "note": "For positive hardening modulus, shear modulus, correction factors and weighted volumes. Exact arithmetic: 1./3. is a third, roots are below DBL_MAX."
  },
  {
   "property": "C13",
   "status": "partial",
   "theorems": [
    "Verif.Assembly.C13_every_copy_partial",
    "Verif.Assembly.C13_again_multiplies",
    "Verif.Assembly.C13_not_idempotent"
   ],
   "note": "The second half is false: a further synchronisation multiplies every value by its number of copies."
  },
  {
   "property": "C130",
   "status": "proved",
   "theorems": [
    "Verif.Hardening.C130_force",
    "Verif.Hardening.C130_moment",
    "Verif.Hardening.C130_free_point",
    "Verif.Hardening.C130_frame"
   ],
   "note": "Exact arithmetic."
  },
  {
   "property": "C131",
   "status": "proved",
   "theorems": [
    "Verif.Damage.C131_copies",
    "Verif.Damage.C131_mixed",
    "Verif.Damage.C131_break",
    "Verif.Damage.C131_zero"
   ],
   "note": "Exact arithmetic. Zero is treated differently for the two ends: a bond of a block with critical stretch zero to a block with a positive one breaks at any extension on the side of the first block, and never on the other side."
  },
  {
   "property": "C132",
   "status": "proved",
   "theorems": [
    "Verif.Pals.C132_dilatation",
    "Verif.Pals.C132_energy",
    "Verif.Pals.C132_defined",
    "Verif.Pals.C132_isolated",
    "Verif.Pals.C132_none"
   ],
   "note": "Exact arithmetic: the factorisation fails iff the matrix is singular. C132_none: on a processor without points the set-up reads beyond its list."
  },
  {
   "property": "C133",
   "status": "proved",
   "theorems": [
    "Verif.Pals.C133_force",
    "Verif.Pals.C133_moment",
    "Verif.Pals.C133_frame",
    "Verif.Pals.C133_rigid",
    "Verif.Pals.C133_gradient"
   ],
   "note": "Exact arithmetic."
  },
  {
   "property": "C134",
   "status": "proved",
   "theorems": [
    "Verif.Pals.C134_ignored",
    "Verif.Pals.C134_broken"
   ],
   "note": "C134_broken is a concrete body."
  },
  {
   "property": "C135",
   "status": "proved",
   "theorems": [
    "Verif.Lps.C135_force",
    "Verif.Lps.C135_partials",
    "Verif.Lps.C135_moment",
    "Verif.Lps.C135_defined",
    "Verif.Lps.C135_broken",
    "Verif.Lps.C135_refused",
    "Verif.Lps.C135_accepted",
    "Verif.Lps.C135_kernel",
    "Verif.Lps.C135_turned",
    "Verif.Lps.C135_quadrature"
   ],
   "note": "Exact arithmetic. C135_turned: moments about present positions; C135_quadrature: broken bonds with the improved quadrature, whose weights are arbitrary numbers in the model."
  },
  {
   "property": "C136",
   "status": "proved",
   "theorems": [
    "Verif.Lps.C136_linear",
    "Verif.Lps.C136_rigid",
    "Verif.Lps.C136_reciprocal",
    "Verif.Lps.C136_resists",
    "Verif.Lps.C136_turned"
   ],
   "note": "Exact arithmetic. C136_turned: a quarter turn causes forces."
  },
  {
   "property": "C137",
   "status": "proved",
   "theorems": [
    "Verif.Lps.C137_tangent",
    "Verif.Lps.C137_defined"
   ],
   "note": "Exact arithmetic."
  },
  {
   "property": "C138",
   "status": "proved",
   "theorems": [
    "Verif.Assoc.C138_exact",
    "Verif.Assoc.C138_exact_rate",
    "Verif.Assoc.C138_influence",
    "Verif.Assoc.C138_weighted_volume",
    "Verif.Assoc.C138_reported",
    "Verif.Assoc.C138_silent",
    "Verif.Assoc.C138_singular",
    "Verif.Assoc.C138_unread",
    "Verif.Assoc.C138_initial_damage",
    "Verif.Assoc.C138_stale"
   ],
   "note": "Exact arithmetic; the singular value decomposition is an arbitrary function that decomposes every symmetric matrix (one exists, correct_exists). C138_silent, C138_singular, C138_initial_damage and C138_stale are the negative parts."
  },
  {
   "property": "C139",
   "status": "proved",
   "theorems": [
    "Verif.Assoc.C139_force",
    "Verif.Assoc.C139_broken",
    "Verif.Assoc.C139_defined"
   ],
   "note": "Exact arithmetic."
  },
  {
   "property": "C14",
   "status": "proved",
   "theorems": [
    "Verif.Neigh.C14_same_neighbors"
   ],
   "note": "For every valid choice of the processor an import takes data from."
  },
  {
   "property": "C140",
   "status": "proved",
   "theorems": [
    "Verif.Assoc.C140_power",
    "Verif.Assoc.C140_moment",
    "Verif.Assoc.C140_elastic_symmetric"
   ],
   "note": "Exact arithmetic; one processor (all points owned)."
  },
  {
   "property": "C141",
   "status": "proved",
   "theorems": [
    "Verif.Assoc.C141_paired",
    "Verif.Assoc.C141_follows",
    "Verif.Assoc.C141_affine"
   ],
   "note": "Exact arithmetic."
  },
  {
   "property": "C142",
   "status": "proved",
   "theorems": [
    "Verif.Assoc.C142_rigid",
    "Verif.Assoc.C142_still",
    "Verif.Assoc.C142_carried",
    "Verif.Assoc.C142_steady",
    "Verif.Assoc.C142_unloaded"
   ],
   "note": "Exact arithmetic; one processor (all points owned)."
  },
  {
   "property": "C143",
   "status": "proved",
   "theorems": [
    "Verif.Return.C143_surface",
    "Verif.Return.C143_slope",
    "Verif.Return.C143_elastic",
    "Verif.Return.C143_exact",
    "Verif.Return.C143_unique"
   ],
   "note": "Exact arithmetic; initial yield stress at least 2e-20, the size of the guard against division by zero."
  },
  {
   "property": "C144",
   "status": "proved",
   "theorems": [
    "Verif.Return.C144_flow",
    "Verif.Return.C144_symmetric"
   ],
   "note": "Exact arithmetic."
  },
  {
   "property": "C145",
   "status": "proved",
   "theorems": [
    "Verif.Return.C145_defined",
    "Verif.Return.C145_ends",
    "Verif.Return.C145_rate",
    "Verif.Return.C145_slope",
    "Verif.Return.C145_unchecked",
    "Verif.Return.C145_rules"
   ],
   "note": "Exact arithmetic: in floating point the tolerance of 1e-16 times the bulk modulus may be below rounding. C145_unchecked is a negative part."
  },
  {
   "property": "C146",
   "status": "proved",
   "theorems": [
    "Verif.Return.C146_isotropic"
   ],
   "note": "Exact arithmetic."
  },
  {
   "property": "C147",
   "status": "proved",
   "theorems": [
    "Verif.Return.C147_admissible",
    "Verif.Return.C147_monotone",
    "Verif.Return.C147_continues",
    "Verif.Return.C147_symmetric"
   ],
   "note": "Exact arithmetic; the rates of deformation are arbitrary."
  },
  {
   "property": "C148",
   "status": "partial",
   "theorems": [
    "Verif.Return.C148_triaxiality_partial",
    "Verif.Return.C148_stale_first",
    "Verif.Return.C148_stale"
   ],
   "note": "False of the code for bonds with the saturating rule (negation proved): the triaxiality is computed before the stress is stored, from the stress of the step before the last one. Proved for points and for the power law."
  },
  {
   "property": "C149",
   "status": "partial",
   "theorems": [
    "Verif.Setup.C149_horizon",
    "Verif.Setup.C149_parameters",
    "Verif.Setup.C149_refused",
    "Verif.Setup.C149_screening_partial",
    "Verif.Setup.C149_screening_fails",
    "Verif.Setup.C149_screening_other"
   ],
   "note": "The screening for multiphysics is false of the code (negation proved): it looks at the name of the material, not its model; proved for inputs that name their materials accordingly. The rest is proved."
  },
  {
   "property": "C15",
   "status": "partial",
   "theorems": [
    "Verif.Search.search_sound",
    "Verif.Search.search_complete_partial",
    "Verif.Search.search_exact_partial",
    "Verif.Search.search_ties_partial",
    "Verif.Search.search_independent_partial",
    "Verif.Search.search_symmetric_partial",
    "Verif.Search.search_defined",
    "Verif.Search.varying_radii_miss_neighbor",
    "Verif.Search.tie_misses_neighbor",
    "Verif.Search.empty_processor_ub"
   ],
   "note": "Exact for one common radius on decompositions whose processors share no cutting plane; false for differing radii and, at distance exactly equal to the radius, for points on shared cutting planes. Assumes that the Zoltan queries leave out no processor or point (Zoltan.Complete)."
  },
  {
   "property": "C150",
   "status": "proved",
   "theorems": [
    "Verif.Setup.C150_density"
   ],
   "note": ""
  },
  {
   "property": "C151",
   "status": "partial",
   "theorems": [
    "Verif.Setup.C151_solvers",
    "Verif.Setup.C151_scheme",
    "Verif.Setup.C151_full_partial",
    "Verif.Setup.C151_asked",
    "Verif.Setup.C151_some",
    "Verif.Setup.C151_explicit",
    "Verif.Setup.C151_fails"
   ],
   "note": "False of the code (negation proved): a quasi-static solver beside another solver that asks for less gets a block-diagonal matrix. Proved for analyses whose solvers agree."
  },
  {
   "property": "C152",
   "status": "partial",
   "theorems": [
    "Verif.Setup.C152_steps_partial",
    "Verif.Setup.C152_initial_partial",
    "Verif.Setup.C152_implicit_fixed",
    "Verif.Setup.C152_fails",
    "Verif.Setup.C152_initial_fails",
    "Verif.Setup.C152_unassigned"
   ],
   "note": "False of the code (negation proved) for all solvers but the explicit one, which keep the values of time zero, and for the first evaluation of an explicit solver with an initial time. Proved for the steps of the explicit solver, for functions that assign their value whenever executed."
  },
  {
   "property": "C153",
   "status": "partial",
   "theorems": [
    "Verif.Setup.C153_usable_partial",
    "Verif.Setup.C153_implicit_partial",
    "Verif.Setup.C153_explicit_step",
    "Verif.Setup.C153_explicit_fails",
    "Verif.Setup.C153_fails"
   ],
   "note": "False of the code (negation proved): no explicit step can be made with the interface-aware model. Proved for all other cases."
  },
  {
   "property": "C154",
   "status": "partial",
   "theorems": [
    "Verif.Setup.C154_partial",
    "Verif.Setup.C154_renumbered",
    "Verif.Setup.C154_fails",
    "Verif.Setup.C154_without_set"
   ],
   "note": "False of the code (negation proved): the local ids of the points are taken for global ids. Proved for blocks where they agree; C154_renumbered tells what happens in general. One processor."
  },
  {
   "property": "C155",
   "status": "partial",
   "theorems": [
    "Verif.Setup.C155_objects",
    "Verif.Setup.C155_refused",
    "Verif.Setup.C155_unknown",
    "Verif.Setup.C155_once_partial",
    "Verif.Setup.C155_once_fails",
    "Verif.Setup.C155_any_partial",
    "Verif.Setup.C155_any_fails",
    "Verif.Setup.C155_fields"
   ],
   "note": "Two parts are false of the code (negations proved): a name spelled in two ways gives two objects, and four classes read from a null pointer if they are listed as output variables without parameters. Otherwise proved."
  },
  {
   "property": "C156",
   "status": "proved",
   "theorems": [
    "Verif.Needleman.C156_step",
    "Verif.Needleman.C156_surface"
   ],
   "note": "Exact arithmetic."
  },
  {
   "property": "C157",
   "status": "partial",
   "theorems": [
    "Verif.Needleman.C157_increment_partial",
    "Verif.Needleman.C157_start",
    "Verif.Needleman.C157_runaway"
   ],
   "note": "False of the code for increments above one (C157_runaway, with an example): the bisection halves the wrong interval. Proved for increments below one that are not smaller than 2^-99000. Exact arithmetic."
  },
  {
   "property": "C158",
   "status": "partial",
   "theorems": [
    "Verif.Needleman.C158_bounds_partial",
    "Verif.Needleman.C158_not_consistent"
   ],
   "note": "False of the code (negation proved): at most half of the plastic strain of a first step is recorded. Proved are bounds for the recorded strain."
  },
  {
   "property": "C159",
   "status": "partial",
   "theorems": [
    "Verif.Needleman.C159_elastic_partial",
    "Verif.Needleman.C159_drop",
    "Verif.Needleman.C159_not_continuous"
   ],
   "note": "False of the code (negation proved): steps below the static yield stress are elastic at all rates, but once it is reached a slow step falls to the flow stress at its rate. Proved below the yield stress."
  },
  {
   "property": "C16",
   "status": "proved",
   "theorems": [
    "Verif.Filter.cuts_symmetric",
    "Verif.Filter.cuts_defined",
    "Verif.Filter.plane_removes_iff",
    "Verif.Filter.disk_removes_iff",
    "Verif.Filter.triangle_removes_iff",
    "Verif.Filter.quad_removes_iff",
    "Verif.Filter.filters_mark_iff"
   ],
   "note": "Exact real arithmetic; the tolerances of the code are part of the statements."
  },
  {
   "property": "C160",
   "status": "proved",
   "theorems": [
    "Verif.Needleman.C160_isotropic",
    "Verif.Needleman.C160_perfect",
    "Verif.Needleman.C160_hardening"
   ],
   "note": ""
  },
  {
   "property": "C161",
   "status": "proved",
   "theorems": [
    "Verif.Needleman.C161_fields",
    "Verif.Needleman.C161_continues",
    "Verif.Needleman.C161_flaw",
    "Verif.Needleman.C161_switch",
    "Verif.Needleman.C161_unchecked"
   ],
   "note": "For sound constants; the code does not check them, and with a zero reference strain the first plastic step divides by zero (C161_unchecked)."
  },
  {
   "property": "C162",
   "status": "proved",
   "theorems": [
    "Verif.Hypo.C162_exact",
    "Verif.Hypo.C162_flying",
    "Verif.Hypo.C162_bond",
    "Verif.Hypo.C162_affine"
   ],
   "note": "Exact arithmetic; the singular value decomposition is any correct one."
  },
  {
   "property": "C163",
   "status": "partial",
   "theorems": [
    "Verif.Hypo.C163_force",
    "Verif.Hypo.C163_broken",
    "Verif.Hypo.C163_flown",
    "Verif.Hypo.C163_first_flight_fails",
    "Verif.Hypo.C163_defined",
    "Verif.Hypo.C163_isolated_fails",
    "Verif.Hypo.C163_volumes"
   ],
   "note": "False of the code in two points: in the first step in which it flies a point still has forces, and a point left with flown neighbors only divides by zero. The rest is proved."
  },
  {
   "property": "C164",
   "status": "partial",
   "theorems": [
    "Verif.Hypo.C164_cut",
    "Verif.Hypo.C164_default_fails"
   ],
   "note": "False with the default influence function, which is constant. Proved for Parabolic Decay."
  },
  {
   "property": "C165",
   "status": "proved",
   "theorems": [
    "Verif.Hypo.C165_power",
    "Verif.Hypo.C165_moment",
    "Verif.Hypo.C165_symmetric"
   ],
   "note": "Exact arithmetic."
  },
  {
   "property": "C166",
   "status": "partial",
   "theorems": [
    "Verif.Hypo.C166_rigid",
    "Verif.Hypo.C166_carried",
    "Verif.Hypo.C166_growth_fails"
   ],
   "note": "Proved for the velocity of a rigid motion at the current positions. False for finite rotations from step to step with the velocities that take the points there: the Jacobian determinant grows in every step."
  },
  {
   "property": "C167",
   "status": "partial",
   "theorems": [
    "Verif.Hypo.C167_perfect_bound",
    "Verif.Hypo.C167_perfect_step",
    "Verif.Hypo.C167_node_partial",
    "Verif.Hypo.C167_triaxiality_fails",
    "Verif.Hypo.C167_bond_partial",
    "Verif.Hypo.C167_bond_fails",
    "Verif.Hypo.C167_fluid_fails"
   ],
   "note": "Proved for the perfectly plastic material. False for the hardening one: triaxiality of points is not updated in elastic steps, and stresses of bonds are scaled up to the estimated yield stress."
  },
  {
   "property": "C168",
   "status": "partial",
   "theorems": [
    "Verif.Hypo.C168_gap",
    "Verif.Hypo.C168_expansion_fails",
    "Verif.Hypo.C168_strain",
    "Verif.Hypo.C168_rotation_fails"
   ],
   "note": "False of the code; the difference is computed exactly."
  },
  {
   "property": "C169",
   "status": "proved",
   "theorems": [
    "Verif.KdTree.C169_within",
    "Verif.KdTree.C169_negative"
   ],
   "note": "For every tree that could be built (see C172), with any rounding in the construction that keeps middles below the larger number; the query itself is in exact arithmetic."
  },
  {
   "property": "C17",
   "status": "proved",
   "theorems": [
    "Verif.Mech.C17_elastic",
    "Verif.Mech.C17_bondBased",
    "Verif.Mech.C17_plastic",
    "Verif.Mech.C17_visco",
    "Verif.Mech.elastic_defined",
    "Verif.Mech.bondBased_defined",
    "Verif.Mech.plastic_defined",
    "Verif.Mech.visco_defined"
   ],
   "note": "Exact real arithmetic; a division by zero is a distinct outcome, and elastic_defined etc. show that proper configurations never meet it."
  },
  {
   "property": "C170",
   "status": "proved",
   "theorems": [
    "Verif.KdTree.C170_cube"
   ],
   "note": "As C169."
  },
  {
   "property": "C171",
   "status": "proved",
   "theorems": [
    "Verif.KdTree.C171_nearest",
    "Verif.KdTree.C171_refused"
   ],
   "note": "As C169."
  },
  {
   "property": "C172",
   "status": "partial",
   "theorems": [
    "Verif.KdTree.C172_defined",
    "Verif.KdTree.C172_nodes",
    "Verif.KdTree.C172_coincident_fails",
    "Verif.KdTree.C172_iff",
    "Verif.KdTree.C172_adjacent_fails",
    "Verif.KdTree.C172_double_fails"
   ],
   "note": "False of the code: with two points at the same place, or at neighboring floating point numbers, the recursion does not end. Proved for all other points."
  },
  {
   "property": "C173",
   "status": "partial",
   "theorems": [
    "Verif.KdTree.C173_same",
    "Verif.KdTree.C173_coincident_fails"
   ],
   "note": "False for points that coincide. Proved for all others, with the assumptions about Zoltan of C15."
  },
  {
   "property": "C174",
   "status": "proved",
   "theorems": [
    "Verif.ShearFactor.C174_energy",
    "Verif.ShearFactor.C174_uncorrected"
   ],
   "note": "For the probing shear gamma = 10^-6 in the planes of the axes; C174_uncorrected shows what the energy is without the factor."
  },
  {
   "property": "C175",
   "status": "partial",
   "theorems": [
    "Verif.ShearFactor.C175_fails",
    "Verif.ShearFactor.C175_squared_partial"
   ],
   "note": "False of the code: the inverse of the factor is stored, so that the deviation is squared. Proved that it is."
  },
  {
   "property": "C176",
   "status": "proved",
   "theorems": [
    "Verif.ShearFactor.C176_iff",
    "Verif.ShearFactor.C176_line_fails",
    "Verif.ShearFactor.C176_axes"
   ],
   "note": "C176_axes: neighborhoods along the axes are accepted but get a factor of 10^12 or more."
  },
  {
   "property": "C177",
   "status": "partial",
   "theorems": [
    "Verif.ShearFactor.C177_same",
    "Verif.ShearFactor.C177_rotation_fails"
   ],
   "note": "Proved but for the orientation of the body, on which the factor does depend."
  },
  {
   "property": "C178",
   "status": "partial",
   "theorems": [
    "Verif.ShearFactor.C178_partial",
    "Verif.ShearFactor.C178_defined",
    "Verif.ShearFactor.C178_broken"
   ],
   "note": "False with broken bonds (C178_broken, as C97). Proved for intact bodies."
  },
  {
   "property": "C179",
   "status": "partial",
   "theorems": [
    "Verif.Post.C179_partial",
    "Verif.Post.C179_skipped",
    "Verif.Post.C179_fails",
    "Verif.Post.C179_code",
    "Verif.Post.C179_zero"
   ],
   "note": "False of the code: blocks after the first one with an undetermined point are not computed (C179_skipped, C179_fails). Proved for the blocks up to that one."
  },
  {
   "property": "C18",
   "status": "proved",
   "theorems": [
    "Verif.Mech.C18_elastic",
    "Verif.Mech.C18_bondBased",
    "Verif.Mech.C18_plastic",
    "Verif.Mech.C18_visco"
   ],
   "note": "Exact real arithmetic; a division by zero is a distinct outcome, and elastic_defined etc. show that proper configurations never meet it."
  },
  {
   "property": "C180",
   "status": "partial",
   "theorems": [
    "Verif.Post.C180_partial",
    "Verif.Post.C180_scaled",
    "Verif.Post.C180_not_cube",
    "Verif.Post.C180_thin",
    "Verif.Post.C180_not_box",
    "Verif.Post.C180_other"
   ],
   "note": "Proved for cubes. False for other boxes, which are accepted (C180_not_cube), and there are accepted elements that are not boxes (C180_not_box)."
  },
  {
   "property": "C181",
   "status": "proved",
   "theorems": [
    "Verif.Post.C181_sum",
    "Verif.Post.C181_defined",
    "Verif.Post.C181_refused"
   ],
   "note": ""
  },
  {
   "property": "C182",
   "status": "proved",
   "theorems": [
    "Verif.Post.C182_file"
   ],
   "note": "Coordinates are exact in the model; the code prints six digits."
  },
  {
   "property": "C183",
   "status": "proved",
   "theorems": [
    "Verif.Post.C183_radius",
    "Verif.Post.C183_negative"
   ],
   "note": "For a negative volume the code computes the power of a negative number (not a number)."
  },
  {
   "property": "C184",
   "status": "proved",
   "theorems": [
    "Verif.Exodus.nodal_variable_reads_back"
   ],
   "note": "values over exact numbers"
  },
  {
   "property": "C185",
   "status": "proved",
   "theorems": [
    "Verif.Exodus.element_variable_reads_back"
   ],
   "note": ""
  },
  {
   "property": "C186",
   "status": "proved",
   "theorems": [
    "Verif.Exodus.global_variable_reads_back"
   ],
   "note": ""
  },
  {
   "property": "C187",
   "status": "proved",
   "theorems": [
    "Verif.Exodus.mesh_reads_back"
   ],
   "note": ""
  },
  {
   "property": "C188",
   "status": "proved",
   "theorems": [
    "Verif.Exodus.node_set_reads_back",
    "Verif.Exodus.foreign_node_terminates"
   ],
   "note": ""
  },
  {
   "property": "C189",
   "status": "partial",
   "theorems": [
    "Verif.Exodus.processors_have_own_files",
    "Verif.Exodus.kinds_have_own_files",
    "Verif.Exodus.sections_have_own_files_partial",
    "Verif.Exodus.different_sections_share_a_file"
   ],
   "note": "output sections whose names differ in a period or space share a file"
  },
  {
   "property": "C19",
   "status": "proved",
   "theorems": [
    "Verif.Mech.C19_elastic",
    "Verif.Mech.C19_bondBased",
    "Verif.Mech.C19_plastic",
    "Verif.Mech.C19_visco"
   ],
   "note": "Exact real arithmetic. Rotations, reflections and translations."
  },
  {
   "property": "C190",
   "status": "proved",
   "theorems": [
    "Verif.Exodus.truth_table_tells"
   ],
   "note": ""
  },
  {
   "property": "C191",
   "status": "partial",
   "theorems": [
    "Verif.Exodus.request_is_written_partial",
    "Verif.Exodus.written_names_fit",
    "Verif.Exodus.long_label_overruns",
    "Verif.Exodus.clash_of_names_fails",
    "Verif.Exodus.nodal_field_of_one_block_fails"
   ],
   "note": "false of the code for labels longer than 32 bytes, for components with equal names and for nodal fields of some blocks only"
  },
  {
   "property": "C192",
   "status": "partial",
   "theorems": [
    "Verif.Exodus.listed_variables_are_requested_partial",
    "Verif.Exodus.value_of_request_is_ignored",
    "Verif.Exodus.false_variable_is_written"
   ],
   "note": "the values of the list are not read: an entry with the value false is written"
  },
  {
   "property": "C193",
   "status": "proved",
   "theorems": [
    "Verif.Touch.C193_run",
    "Verif.Touch.C193_defined",
    "Verif.Touch.C193_independent",
    "Verif.Touch.C193_balanced",
    "Verif.Touch.C193_exchange",
    "Verif.Touch.C193_twice",
    "Verif.Touch.C193_far"
   ],
   "note": "the geometric search itself is C15 and C169-C173; here its result is a parameter that is the same for every distribution"
  },
  {
   "property": "C194",
   "status": "partial",
   "theorems": [
    "Verif.Touch.C194_evaluate_partial",
    "Verif.Touch.C194_run_partial",
    "Verif.Touch.C194_initial_time_false",
    "Verif.Touch.C194_switch_false",
    "Verif.Touch.C194_error"
   ],
   "note": "proved for functions that do not read value, with initial time 0; false of the code otherwise"
  },
  {
   "property": "C195",
   "status": "partial",
   "theorems": [
    "Verif.Touch.C195_short_range_partial",
    "Verif.Touch.C195_time_dependent_partial",
    "Verif.Touch.C195_defined",
    "Verif.Touch.C195_errors",
    "Verif.Touch.C195_named_false"
   ],
   "note": "proved for the first model of the section; false of the code if the interactions name another"
  },
  {
   "property": "C196",
   "status": "partial",
   "theorems": [
    "Verif.Touch.C196_list_partial",
    "Verif.Touch.C196_final_false",
    "Verif.Touch.C196_twice_false",
    "Verif.Touch.C196_empty",
    "Verif.Touch.C196_ignored",
    "Verif.Touch.C196_uninvolved_false"
   ],
   "note": "the list of interactions is only printed"
  },
  {
   "property": "C197",
   "status": "partial",
   "theorems": [
    "Verif.Convert.C197_sound",
    "Verif.Convert.C197_points",
    "Verif.Convert.C197_file",
    "Verif.Convert.C197_defined",
    "Verif.Convert.C197_refused",
    "Verif.Convert.C197_unnumbered",
    "Verif.Convert.C197_scale_fails",
    "Verif.Convert.C197_scale_partial"
   ],
   "note": "false of the code for scaled volumes: positions are scaled, volumes are not; the rest is proved for every scale factor"
  },
  {
   "property": "C198",
   "status": "partial",
   "theorems": [
    "Verif.Convert.C198_members",
    "Verif.Convert.C198_sets_partial",
    "Verif.Convert.C198_fails",
    "Verif.Convert.C198_undefined"
   ],
   "note": "proved for meshes whose elements are numbered in the order of the file; false of the code otherwise"
  },
  {
   "property": "C199",
   "status": "proved",
   "theorems": [
    "Verif.Convert.C199_layers",
    "Verif.Convert.C199_clash"
   ],
   "note": "for node set ids in range (otherwise C198_undefined) and coordinates that are numbers of double precision; distances before scaling"
  },
  {
   "property": "C20",
   "status": "proved",
   "theorems": [
    "Verif.Mech.C20_rigid"
   ],
   "note": "State-based and bond-based elastic materials, exact real arithmetic."
  },
  {
   "property": "C200",
   "status": "proved",
   "theorems": [
    "Verif.Convert.C200_file"
   ],
   "note": "the numbers of points and entries are the lengths of the arrays"
  },
  {
   "property": "C201",
   "status": "proved",
   "theorems": [
    "Verif.Synch.C201_vectors",
    "Verif.Synch.C201_others",
    "Verif.Synch.C201_places",
    "Verif.Synch.C201_every_record"
   ],
   "note": "the importers are assumed to find the owner of every id, as for C12"
  },
  {
   "property": "C202",
   "status": "partial",
   "theorems": [
    "Verif.Synch.C202_sum_partial",
    "Verif.Synch.C202_next_solver",
    "Verif.Synch.C202_wrong_first_record"
   ],
   "note": "true of records after an evaluation; false of the first record of a solver that follows another and does not evaluate the model first"
  },
  {
   "property": "C203",
   "status": "partial",
   "theorems": [
    "Verif.Synch.C203_record_partial",
    "Verif.Synch.C203_next_solver",
    "Verif.Synch.C203_wrong_first_record"
   ],
   "note": "false of the first record of a solver that follows another and does not evaluate the model first: it shows the state before the last"
  },
  {
   "property": "C204",
   "status": "proved",
   "theorems": [
    "Verif.Synch.C204_force",
    "Verif.Synch.C204_sees",
    "Verif.Synch.C204_refused",
    "Verif.Synch.C204_returns"
   ],
   "note": "sums over exact numbers; a sum of finite numbers is taken to be finite"
  },
  {
   "property": "C205",
   "status": "partial",
   "theorems": [
    "Verif.Synch.C205_collected",
    "Verif.Synch.C205_check",
    "Verif.Synch.C205_never_fails",
    "Verif.Synch.C205_missing_field",
    "Verif.Synch.C205_elastic_beside"
   ],
   "note": "false of the code for \"any materials\": all blocks must store every field that is synchronised"
  },
  {
   "property": "C206",
   "status": "partial",
   "theorems": [
    "Verif.Synch.C206_multiplied",
    "Verif.Synch.C206_jacobian",
    "Verif.Synch.C206_flag"
   ],
   "note": "false of the code for the Jacobian determinant of points with ghosts; proved for the sign of the flag"
  },
  {
   "property": "C207",
   "status": "partial",
   "theorems": [
    "Verif.Synch.C207_seen_partial",
    "Verif.Synch.C207_only_lps",
    "Verif.Synch.C207_recurrence",
    "Verif.Synch.C207_grows",
    "Verif.Synch.C207_witness"
   ],
   "note": "proved if all blocks have the LPS material; false beside other materials with a dilatation"
  },
  {
   "property": "C208",
   "status": "partial",
   "theorems": [
    "Verif.Assoc.C208_written_partial",
    "Verif.Assoc.C208_exceeds_partial",
    "Verif.Assoc.C208_turning",
    "Verif.Assoc.C208_beginning"
   ],
   "note": "False of the code: the strain is integrated by a one-sided rule. Proved: exactly what is written, that it never falls below the strain of the gradient, and that a turning body is written with strains that grow without bound."
  },
  {
   "property": "C209",
   "status": "proved",
   "theorems": [
    "Verif.Assoc.C209_same"
   ],
   "note": "Exact arithmetic; one processor; the stress law is the same function at points and bonds, as in the elastic material."
  },
  {
   "property": "C21",
   "status": "proved",
   "theorems": [
    "Verif.Mech.C21_no_load",
    "Verif.Mech.C21_free_point",
    "Verif.Mech.C21_free_point_plastic",
    "Verif.Mech.C21_free_point_visco"
   ],
   "note": "No load means: what happens at points reached only by broken bonds does not influence dilatation or force."
  },
  {
   "property": "C210",
   "status": "partial",
   "theorems": [
    "Verif.Correspondence.C210_stress_partial",
    "Verif.Correspondence.C210_strain_partial",
    "Verif.Correspondence.C210_cycle",
    "Verif.Correspondence.C210_not_elastic"
   ],
   "note": "False of the code. Proved for homogeneous stretches with fixed principal directions: exactly what the stress is, that its strains lie below the logarithmic ones by at most the coarseness of the steps, and that every closed path leaves a pressure."
  },
  {
   "property": "C211",
   "status": "partial",
   "theorems": [
    "Verif.Correspondence.C211_displaced",
    "Verif.Correspondence.C211_begins",
    "Verif.Correspondence.C211_homogeneous",
    "Verif.Correspondence.C211_no_stress"
   ],
   "note": "False of the code: proved that no initial displacement whatever causes any stress."
  },
  {
   "property": "C212",
   "status": "partial",
   "theorems": [
    "Verif.Correspondence.C212_velocities_partial",
    "Verif.Correspondence.C212_not_free"
   ],
   "note": "False of the code: the stress at time zero is that of the strain rate times the time step. The exact value is proved for symmetric velocity gradients; rigid motions are C80."
  },
  {
   "property": "C213",
   "status": "proved",
   "theorems": [
    "Verif.Fad.C213_exact_derivative",
    "Verif.Fad.C213_block_diagonal",
    "Verif.Fad.C213_defined",
    "Verif.Fad.C213_terminates"
   ],
   "note": "Exact arithmetic; the number type of the library is modelled by the rules for sum, product, quotient and square root, an evaluation that is not finite by none."
  },
  {
   "property": "C214",
   "status": "proved",
   "theorems": [
    "Verif.Fad.C214_finite_differences",
    "Verif.Fad.C214_defined"
   ],
   "note": "Exact arithmetic."
  },
  {
   "property": "C215",
   "status": "proved",
   "theorems": [
    "Verif.Fad.C215_symmetric"
   ],
   "note": "Exact arithmetic."
  },
  {
   "property": "C216",
   "status": "proved",
   "theorems": [
    "Verif.Fad.C216_translations",
    "Verif.Fad.C216_rotations"
   ],
   "note": "Exact arithmetic."
  },
  {
   "property": "C217",
   "status": "proved",
   "theorems": [
    "Verif.Fad.C217_stable",
    "Verif.Fad.C217_compressed"
   ],
   "note": "Exact arithmetic; weighted volumes as the material computes them."
  },
  {
   "property": "C218",
   "status": "proved",
   "theorems": [
    "Verif.Fad.C218_same_force"
   ],
   "note": "Exact arithmetic."
  },
  {
   "property": "C219",
   "status": "partial",
   "theorems": [
    "Verif.Fad.C219_below_yield_partial",
    "Verif.Fad.C219_influence_ignored"
   ],
   "note": "False of the code unless the influence function is one: forces of the elastic-plastic material ignore it. Proved: equality if it is one; for a constant influence function the exact factor between the two."
  },
  {
   "property": "C22",
   "status": "proved",
   "theorems": [
    "Verif.Mech.C22_positive",
    "Verif.Mech.C22_order",
    "Verif.Mech.C22_stored"
   ],
   "note": ""
  },
  {
   "property": "C220",
   "status": "proved",
   "theorems": [
    "Verif.Fad.C220_consistent_tangent",
    "Verif.Fad.C220_defined",
    "Verif.Fad.C220_finite_differences",
    "Verif.Fad.C220_finite_differences_defined"
   ],
   "note": "Exact arithmetic; numbers that are not finite, which the code adds to the tangent unnoticed, are undefined behaviour in the model."
  },
  {
   "property": "C221",
   "status": "partial",
   "theorems": [
    "Verif.Fad.C221_block_diagonal_terminates"
   ],
   "note": "False of the code: proved that the request always ends the program (for finite differences see C90)."
  },
  {
   "property": "C222",
   "status": "proved",
   "theorems": [
    "Verif.Fad.C222_elastic_tangent",
    "Verif.Fad.C222_symmetric"
   ],
   "note": "Exact arithmetic."
  },
  {
   "property": "C223",
   "status": "partial",
   "theorems": [
    "Verif.Fad.C223_symmetric_partial",
    "Verif.Fad.C223_broken_not_symmetric"
   ],
   "note": "False of the code for a point that yields and has a broken bond (witness). Proved if each point that yields has no damaged bond and isochoric plastic extensions (which C224 provides)."
  },
  {
   "property": "C224",
   "status": "proved",
   "theorems": [
    "Verif.Mech.C224_isochoric",
    "Verif.Mech.C224_virgin"
   ],
   "note": "Exact arithmetic."
  },
  {
   "property": "C225",
   "status": "proved",
   "theorems": [
    "Verif.Fad.C225_translations",
    "Verif.Fad.C225_rotations"
   ],
   "note": "Exact arithmetic."
  },
  {
   "property": "C226",
   "status": "partial",
   "theorems": [
    "Verif.Newton.C226_entries",
    "Verif.Newton.C226_graph",
    "Verif.Newton.C226_processors",
    "Verif.Newton.C226_form",
    "Verif.Newton.C226_lift",
    "Verif.Newton.C226_definite",
    "Verif.Newton.C226_system",
    "Verif.Newton.C226_unstable_fails"
   ],
   "note": "False of the code for a tangent with a negative diagonal entry, which damping makes more negative (witness). Proved otherwise. Exact arithmetic."
  },
  {
   "property": "C227",
   "status": "partial",
   "theorems": [
    "Verif.Newton.C227_matrices",
    "Verif.Newton.C227_reason",
    "Verif.Newton.C227_second_attempt",
    "Verif.Newton.C227_second_attempt_fails"
   ],
   "note": "The claim about the repeated solve is false of the code once damping is on: the same system is solved again, only without preconditioner (witness). The rest is proved."
  },
  {
   "property": "C228",
   "status": "partial",
   "theorems": [
    "Verif.Nox.C228_reports_zero",
    "Verif.Nox.C228_fails",
    "Verif.Nox.C228_loop_partial"
   ],
   "note": "False of the code: the reported asymmetric norm is always zero, as the copy that is compared is the Jacobian itself and not its transpose. Proved: with the transpose in that place the reported number would be zero exactly for symmetric matrices."
  },
  {
   "property": "C229",
   "status": "proved",
   "theorems": [
    "Verif.Synch.C229_blocks",
    "Verif.Synch.C229_others"
   ],
   "note": ""
  },
  {
   "property": "C23",
   "status": "proved",
   "theorems": [
    "Verif.Mech.C23_yield",
    "Verif.Mech.C23_elastic",
    "Verif.Mech.C23_history"
   ],
   "note": "Exact real arithmetic; volumes non-negative, weighted volume and shear modulus positive. Damaged bonds included, so the claim is not restricted to undamaged points."
  },
  {
   "property": "C230",
   "status": "proved",
   "theorems": [
    "Verif.Synch.C230_storage",
    "Verif.Synch.C230_null",
    "Verif.Synch.C230_start"
   ],
   "note": ""
  },
  {
   "property": "C231",
   "status": "partial",
   "theorems": [
    "Verif.Sizes.C231_mesh",
    "Verif.Sizes.C231_processors",
    "Verif.Sizes.C231_box",
    "Verif.Sizes.C231_probe",
    "Verif.Sizes.C231_contact",
    "Verif.Sizes.C231_cylinder_fails"
   ],
   "note": "False of the code for cylinders, whose smallest radius is never set (witness: probes of length 10^44). Proved for meshes and boxes. Exact arithmetic."
  },
  {
   "property": "C232",
   "status": "proved",
   "theorems": [
    "Verif.Combine.C232_starts",
    "Verif.Combine.C232_terminates",
    "Verif.Combine.C232_fields",
    "Verif.Combine.C232_order"
   ],
   "note": ""
  },
  {
   "property": "C233",
   "status": "partial",
   "theorems": [
    "Verif.Porous.C233_exact_derivative",
    "Verif.Porous.C233_defined",
    "Verif.Porous.C233_terminates",
    "Verif.Porous.C233_no_differences"
   ],
   "note": "Exact arithmetic; a number that is not finite is one outcome."
  },
  {
   "property": "C234",
   "status": "partial",
   "theorems": [
    "Verif.Porous.C234_no_block_diagonal"
   ],
   "note": "False of the code: proved is that the assembly always ends the program."
  },
  {
   "property": "C235",
   "status": "partial",
   "theorems": [
    "Verif.Porous.C235_flow_operator",
    "Verif.Porous.C235_symmetric",
    "Verif.Porous.C235_dissipates",
    "Verif.Porous.C235_signs",
    "Verif.Porous.C235_balance",
    "Verif.Porous.C235_translations"
   ],
   "note": "Exact arithmetic."
  },
  {
   "property": "C236",
   "status": "partial",
   "theorems": [
    "Verif.Grid.C236_cells_partial",
    "Verif.Grid.C236_lost",
    "Verif.Grid.C236_one_processor",
    "Verif.Grid.C236_defined",
    "Verif.Grid.C236_missing"
   ],
   "note": "False when a processor but the last ends with a core (C236_lost, C236_missing: the cylinder of the unit tests on ten processors); proved otherwise. Exact arithmetic."
  },
  {
   "property": "C237",
   "status": "partial",
   "theorems": [
    "Verif.Grid.C237_volume",
    "Verif.Grid.C237_inside"
   ],
   "note": "Exact arithmetic; for data that describe the mesh (C236)."
  },
  {
   "property": "C238",
   "status": "partial",
   "theorems": [
    "Verif.BondVolume.C238_value",
    "Verif.BondVolume.C238_mesh",
    "Verif.BondVolume.C238_bounds",
    "Verif.BondVolume.C238_whole",
    "Verif.BondVolume.C238_none",
    "Verif.BondVolume.C238_symmetric",
    "Verif.BondVolume.C238_monotone",
    "Verif.BondVolume.C238_moves"
   ],
   "note": "Exact arithmetic."
  },
  {
   "property": "C239",
   "status": "partial",
   "theorems": [
    "Verif.BondVolume.C239_value_partial",
    "Verif.BondVolume.C239_mesh_partial",
    "Verif.BondVolume.C239_cell_volume",
    "Verif.BondVolume.C239_bounds",
    "Verif.BondVolume.C239_whole_partial",
    "Verif.BondVolume.C239_none_partial",
    "Verif.BondVolume.C239_turns_partial",
    "Verif.BondVolume.C239_monotone",
    "Verif.BondVolume.C239_center"
   ],
   "note": "False for a ring about another line than the z axis (C239_center); proved about the z axis. Exact arithmetic."
  },
  {
   "property": "C24",
   "status": "proved",
   "theorems": [
    "Verif.Mech.C24_bounded"
   ],
   "note": "Exact real arithmetic. The old extension enters with the new damage, as in the code."
  },
  {
   "property": "C240",
   "status": "proved",
   "theorems": [
    "Verif.BondVolume.C240_order",
    "Verif.BondVolume.C240_point",
    "Verif.BondVolume.C240_short"
   ],
   "note": ""
  },
  {
   "property": "C241",
   "status": "partial",
   "theorems": [
    "Verif.BondVolume.C241_dilatation",
    "Verif.BondVolume.C241_norm_partial",
    "Verif.BondVolume.C241_no_shear_partial",
    "Verif.BondVolume.C241_defined",
    "Verif.BondVolume.C241_agrees",
    "Verif.BondVolume.C241_default"
   ],
   "note": "The norm is wrong for an influence function that is not the selected one (C241_default). Exact arithmetic."
  },
  {
   "property": "C242",
   "status": "partial",
   "theorems": [
    "Verif.Assoc.C242_step",
    "Verif.Assoc.C242_bound",
    "Verif.Assoc.C242_defined",
    "Verif.Assoc.C242_fluid"
   ],
   "note": "Exact arithmetic; a step that exceeds the yield surface ends on it if the deviatoric stress is above the threshold 1e-20 of the code."
  },
  {
   "property": "C243",
   "status": "partial",
   "theorems": [
    "Verif.Assoc.C243_rigid",
    "Verif.Assoc.C243_broken",
    "Verif.Assoc.C243_symmetric",
    "Verif.Assoc.C243_moment"
   ],
   "note": "Exact arithmetic; singular value decomposition of the library assumed correct for the rigid motion and the moments."
  },
  {
   "property": "C244",
   "status": "proved",
   "theorems": [
    "Verif.Progress.C244_shows",
    "Verif.Progress.C244_runs",
    "Verif.Progress.C244_bar",
    "Verif.Progress.C244_calls"
   ],
   "note": "The terminal is a line with a cursor that backspaces move and characters overwrite."
  },
  {
   "property": "C245",
   "status": "partial",
   "theorems": [
    "Verif.Storage.C245_shells",
    "Verif.Storage.C245_values",
    "Verif.Storage.C245_ids_partial",
    "Verif.Storage.C245_ids_mixed",
    "Verif.Storage.C245_refused",
    "Verif.Storage.C245_absent"
   ],
   "note": "The numbers of the elements are wrong if a triangle comes before a quadrilateral (C245_ids_mixed). One processor; the values written are those of the output before (C59)."
  },
  {
   "property": "C246",
   "status": "proved",
   "theorems": [
    "Verif.Mesh.C246_own",
    "Verif.Mesh.C246_ghosts",
    "Verif.Mesh.C246_missing",
    "Verif.Mesh.C246_lists"
   ],
   "note": "Imports as in C07. The decomposition of Zoltan is complete, as in C121."
  },
  {
   "property": "C247",
   "status": "partial",
   "theorems": [
    "Verif.Quick.C247_box",
    "Verif.Quick.C247_balanced",
    "Verif.Quick.C247_cylinder",
    "Verif.Quick.C247_refused",
    "Verif.Quick.C247_too_many_broken"
   ],
   "note": "Proved for at most as many processors as cells; with more (and more than two) no discretization is made (negation proved). Zoltan is a parameter with the promises of C128. Numbers are words that are not interpreted. Cylinders are about the z axis (C116)."
  },
  {
   "property": "C248",
   "status": "partial",
   "theorems": [
    "Verif.Record.C248_consistent_partial",
    "Verif.Record.C248_twice_partial",
    "Verif.Record.C248_frame",
    "Verif.Record.C248_analysis",
    "Verif.Record.C248_stale",
    "Verif.Record.C248_shared",
    "Verif.Record.C248_uncomputed",
    "Verif.Record.C248_unregistered",
    "Verif.Record.C248_hypoelastic"
   ],
   "note": "The functions are arbitrary; the model has the fields that they read and write. False if a class that computes fields is given in \"Compute Class Parameters\" after a reduction of them (C248_stale) or if two reductions have one label (C248_shared)."
  },
  {
   "property": "C249",
   "status": "partial",
   "theorems": [
    "Verif.Deck.C249_types",
    "Verif.Deck.C249_section",
    "Verif.Deck.C249_sets",
    "Verif.Deck.C249_condition_name",
    "Verif.Deck.C249_no_coordinate",
    "Verif.Deck.C249_list_partial",
    "Verif.Deck.C249_list_refused",
    "Verif.Deck.C249_list_zero",
    "Verif.Deck.C249_file_zero",
    "Verif.Deck.C249_file_names",
    "Verif.Deck.C249_file_unusable",
    "Verif.Deck.C249_file",
    "Verif.Deck.C249_comma",
    "Verif.Deck.C249_value_partial",
    "Verif.Deck.C249_value_lost"
   ],
   "note": "False for numbers with more than six digits, for node files with commas, for files whose names begin with a number, for lists with white space at the end and for the word of no coordinate; proved otherwise. What the run-time compiler makes of a text is a parameter."
  },
  {
   "property": "C25",
   "status": "proved",
   "theorems": [
    "Verif.Damage.C25_broken_iff",
    "Verif.Damage.C25_irreversible",
    "Verif.Damage.C25_last_evaluation",
    "Verif.Damage.C25_defined"
   ],
   "note": "Exact real arithmetic; one or more evaluations per step."
  },
  {
   "property": "C250",
   "status": "partial",
   "theorems": [
    "Verif.Deck.C250_evaluate_partial",
    "Verif.Deck.C250_stale",
    "Verif.Deck.C250_order"
   ],
   "note": "False for functions that do not always assign the value or that change the position; proved for all others. That variables keep their values between two executions is taken from the interface of the run-time compiler."
  },
  {
   "property": "C251",
   "status": "partial",
   "theorems": [
    "Verif.Sections.C251_accepted",
    "Verif.Sections.C251_refused",
    "Verif.Sections.C251_managers",
    "Verif.Sections.C251_pair",
    "Verif.Sections.C251_records",
    "Verif.Sections.C251_silent",
    "Verif.Sections.C251_other_entries",
    "Verif.Sections.C251_bond_family",
    "Verif.Sections.C251_ascii",
    "Verif.Sections.C251_same_file"
   ],
   "note": "False for the options Bond Family and ASCII and for the names of files; proved otherwise. Validation is taken from the documentation of Teuchos."
  },
  {
   "property": "C252",
   "status": "proved",
   "theorems": [
    "Verif.Visco.C252_exact",
    "Verif.Visco.C252_split"
   ],
   "note": "Exact arithmetic."
  },
  {
   "property": "C253",
   "status": "proved",
   "theorems": [
    "Verif.Visco.C253_relaxes",
    "Verif.Visco.C253_steps"
   ],
   "note": "Exact arithmetic."
  },
  {
   "property": "C254",
   "status": "partial",
   "theorems": [
    "Verif.Visco.C254_influence_ignored",
    "Verif.Visco.C254_from_rest",
    "Verif.Visco.C254_relaxed",
    "Verif.Visco.C254_not_elastic",
    "Verif.Visco.C254_elastic_partial"
   ],
   "note": "False for influence functions other than one, which the forces of the viscoelastic material ignore; proved up to that factor. Exact arithmetic."
  },
  {
   "property": "C255",
   "status": "proved",
   "theorems": [
    "Verif.Conserve.C255_angular",
    "Verif.Conserve.C255_body"
   ],
   "note": "Exact arithmetic."
  },
  {
   "property": "C256",
   "status": "proved",
   "theorems": [
    "Verif.Conserve.C256_conserved",
    "Verif.Conserve.C256_stable"
   ],
   "note": "Exact arithmetic; one processor, fixed damage."
  },
  {
   "property": "C257",
   "status": "partial",
   "theorems": [
    "Verif.Conserve.C257_unstable",
    "Verif.Conserve.C257_stable_partial"
   ],
   "note": "False of the code: two bonded points with the critical time step and any safety factor of at least one half are unstable. Proved: for every mesh there is a safety factor below which all runs are stable."
  },
  {
   "property": "C258",
   "status": "partial",
   "theorems": [
    "Verif.Conserve.C258_step",
    "Verif.Conserve.C258_balance",
    "Verif.Conserve.C258_conserved_partial",
    "Verif.Conserve.C258_stable",
    "Verif.Conserve.C258_first_step_loses"
   ],
   "note": "False for the first step of a new analysis, which begins with zero acceleration whatever the initial forces are; proved for runs that begin in balance. Exact arithmetic; fixed damage."
  },
  {
   "property": "C259",
   "status": "proved",
   "theorems": [
    "Verif.Conserve.C259_frame",
    "Verif.Conserve.C259_elastic"
   ],
   "note": "Exact arithmetic."
  },
  {
   "property": "C26",
   "status": "proved",
   "theorems": [
    "Verif.Damage.C26_fraction",
    "Verif.Damage.C26_monotone"
   ],
   "note": "Exact real arithmetic."
  },
  {
   "property": "C260",
   "status": "proved",
   "theorems": [
    "Verif.Conserve.C260_close",
    "Verif.Conserve.C260_unique",
    "Verif.Conserve.C260_determined"
   ],
   "note": "Exact arithmetic. A tolerance above 10^48 is excluded, as the accepted residual is then not bounded by it."
  },
  {
   "property": "C261",
   "status": "proved",
   "theorems": [
    "Verif.Conserve.C261_minimum",
    "Verif.Conserve.C261_only"
   ],
   "note": "Exact arithmetic. Tolerances up to 10^48 (see C260). What the external force of a record is, is C42_body_force."
  },
  {
   "property": "C262",
   "status": "proved",
   "theorems": [
    "Verif.Conserve.C262_superposition"
   ],
   "note": "Exact arithmetic; fixed damage."
  },
  {
   "property": "C263",
   "status": "proved",
   "theorems": [
    "Verif.Conserve.C263_reach",
    "Verif.Conserve.C263_speed"
   ],
   "note": "Exact arithmetic; fixed damage."
  },
  {
   "property": "C264",
   "status": "proved",
   "theorems": [
    "Verif.Conserve.C264_uniform"
   ],
   "note": "Exact arithmetic."
  },
  {
   "property": "C265",
   "status": "proved",
   "theorems": [
    "Verif.Conserve.C265_superposition",
    "Verif.Conserve.C265_determined"
   ],
   "note": "Exact arithmetic; solves whose residual is zero."
  },
  {
   "property": "C266",
   "status": "proved",
   "theorems": [
    "Verif.Conserve.C266_reciprocal"
   ],
   "note": "Exact arithmetic; solves whose residual is zero."
  },
  {
   "property": "C267",
   "status": "proved",
   "theorems": [
    "Verif.Conserve.C267_superposition",
    "Verif.Conserve.C267_unique"
   ],
   "note": "Exact arithmetic; steps whose residual is zero."
  },
  {
   "property": "C268",
   "status": "proved",
   "theorems": [
    "Verif.Conserve.C268_momentum",
    "Verif.Conserve.C268_center"
   ],
   "note": "Exact arithmetic."
  },
  {
   "property": "C269",
   "status": "proved",
   "theorems": [
    "Verif.Conserve.C269_supports",
    "Verif.Conserve.C269_linear",
    "Verif.Conserve.C269_elastic"
   ],
   "note": "Exact arithmetic. The node sets of the boundary conditions are assumed to exist. The code itself calls the reaction routine at the beginning of a load step, for the scale of the tolerance; the theorem is about what the routine gives for the final internal force, that is, the internal force at prescribed degrees of freedom."
  },
  {
   "property": "C27",
   "status": "partial",
   "theorems": [
    "Verif.Damage.C27_every_other_step_partial",
    "Verif.Damage.C27_bond_heals"
   ],
   "note": "False of the code: a broken bond is whole again one step later, because step NP1 starts from the values of the step before the last. Proved instead: between steps of equal parity damage never decreases."
  },
  {
   "property": "C28",
   "status": "proved",
   "theorems": [
    "Verif.Damage.C28_vonMises_maximum",
    "Verif.Damage.C28_vonMises_monotone",
    "Verif.Damage.C28_vonMises_breaks",
    "Verif.Damage.C28_vonMises_defined",
    "Verif.Damage.C28_johnsonCook_sum",
    "Verif.Damage.C28_johnsonCook_monotone",
    "Verif.Damage.C28_johnsonCook_bond",
    "Verif.Damage.C28_johnsonCook_defined"
   ],
   "note": "Exact real arithmetic."
  },
  {
   "property": "C29",
   "status": "proved",
   "theorems": [
    "Verif.Contact.C29_law",
    "Verif.Contact.C29_range",
    "Verif.Contact.C29_no_force",
    "Verif.Contact.C29_repulsive",
    "Verif.Contact.C29_central",
    "Verif.Contact.C29_friction",
    "Verif.Contact.C29_balanced",
    "Verif.Contact.C29_moment",
    "Verif.Contact.C29_defined",
    "Verif.Contact.C29_invalid_id"
   ],
   "note": "Exact real arithmetic; contact radius and volumes non-negative. The moment is balanced without friction."
  },
  {
   "property": "C30",
   "status": "proved",
   "theorems": [
    "Verif.Contact.C30_exactly_unbonded",
    "Verif.Contact.C30_between",
    "Verif.Contact.C30_run",
    "Verif.Contact.C30_valid_ids"
   ],
   "note": "For every sequence of decompositions and search results. The result of the search is an input here; C15 is about the search. Bonds that have broken still exclude contact, as a comment in the code says."
  },
  {
   "property": "C31",
   "status": "partial",
   "theorems": [
    "Verif.Contact.C31_ordered_partial",
    "Verif.Contact.C31_one_per_pair_partial",
    "Verif.Contact.C31_fails_swapped",
    "Verif.Contact.C31_fails_last",
    "Verif.Contact.C31_fails_general",
    "Verif.Contact.C31_fails_empty"
   ],
   "note": "False of the code: swapped definitions both remain, and of several definitions the one with the greatest model name is used, not the last. Proved: at most one per ordered pair, and the claim itself for consistent inputs."
  },
  {
   "property": "C32",
   "status": "proved",
   "theorems": [
    "Verif.Explicit.C32_run",
    "Verif.Explicit.C32_follows",
    "Verif.Explicit.explicit_defined"
   ],
   "note": "Of several conditions on one degree of freedom the last in the input counts. Exact real arithmetic; whatever the forces."
  },
  {
   "property": "C33",
   "status": "partial",
   "theorems": [
    "Verif.BC.body_force_last_wins_partial",
    "Verif.BC.body_forces_do_not_add"
   ],
   "note": "False of the code where two body force conditions act on one degree of freedom: the last overwrites the others. Proved: the external force density is the value of the last covering condition, zero where there is none, and no other vector changes."
  },
  {
   "property": "C34",
   "status": "proved",
   "theorems": [
    "Verif.BC.insert_zeros_exact",
    "Verif.BC.insert_zeros_idempotent_and_order_independent",
    "Verif.BC.insert_zeros_missing_set"
   ],
   "note": ""
  },
  {
   "property": "C35",
   "status": "partial",
   "theorems": [
    "Verif.BC.tangent_decouples_partial",
    "Verif.BC.tangent_columns_single_processor",
    "Verif.BC.diagonalEntry_ne_zero",
    "Verif.BC.constrained_increments_vanish",
    "Verif.BC.tangent_defined",
    "Verif.BC.off_processor_columns_survive",
    "Verif.BC.repeated_node_overruns"
   ],
   "note": "Rows: proved for every distribution. Columns: proved on one processor, false on several (off_processor_columns_survive). A node set listing a node more often than the row is long overruns a buffer (repeated_node_overruns)."
  },
  {
   "property": "C36",
   "status": "proved",
   "theorems": [
    "Verif.Explicit.C36_covers",
    "Verif.Explicit.C36_defined",
    "Verif.Explicit.C36_step_times"
   ],
   "note": "Exact real arithmetic. Step counts that do not fit an int are undefined behaviour in the code and a distinct outcome in the model."
  },
  {
   "property": "C37",
   "status": "proved",
   "theorems": [
    "Verif.Explicit.C37_positions"
   ],
   "note": ""
  },
  {
   "property": "C38",
   "status": "proved",
   "theorems": [
    "Verif.Body.C38_body",
    "Verif.Explicit.C38_momentum"
   ],
   "note": "Exact real arithmetic. Any division into blocks and processors, any of the four modelled materials, any evolution of damage and internal variables."
  },
  {
   "property": "C39",
   "status": "proved",
   "theorems": [
    "Verif.Explicit.C39_reversible"
   ],
   "note": "Exact real arithmetic."
  },
  {
   "property": "C40",
   "status": "partial",
   "theorems": [
    "Verif.QuasiStatic.C40_increasing",
    "Verif.QuasiStatic.C40_reaches_final_time_partial",
    "Verif.QuasiStatic.C40_reduced_steps_cover",
    "Verif.QuasiStatic.uniform_schedule",
    "Verif.QuasiStatic.C40_uniform",
    "Verif.QuasiStatic.no_load_steps",
    "Verif.QuasiStatic.C40_overshoot"
   ],
   "note": "The times increase in every case. The last load step ends at the final time unless \"Reduce all remaining load steps\" is on and a listed schedule is not made of steps dividing the remaining time: then the code may overshoot (negation proved, cover theorem for that case)."
  },
  {
   "property": "C41",
   "status": "proved",
   "theorems": [
    "Verif.QuasiStatic.C41_terminates",
    "Verif.QuasiStatic.C41_terminates_fixed",
    "Verif.QuasiStatic.C41_bound",
    "Verif.QuasiStatic.C41_attempts_counted",
    "Verif.QuasiStatic.C41_gives_up",
    "Verif.QuasiStatic.C41_inner_loop_ends"
   ],
   "note": "Counters are unbounded naturals."
  },
  {
   "property": "C42",
   "status": "proved",
   "theorems": [
    "Verif.QuasiStatic.C42_only_accepted",
    "Verif.QuasiStatic.C42_rejected_changes_nothing",
    "Verif.QuasiStatic.C42_equilibrium",
    "Verif.QuasiStatic.C42_body_force",
    "Verif.QuasiStatic.C42_handover"
   ],
   "note": "Purely mechanical analyses. An attempt is accepted as in the code: residual at most the tolerance or below a hundred times the tolerance. Data of state NP1 are not restored after a rejected attempt; they are scratch data of the next evaluation."
  },
  {
   "property": "C43",
   "status": "partial",
   "theorems": [
    "Verif.Implicit.C43_newmark",
    "Verif.Implicit.C43_balance",
    "Verif.Implicit.C43_converged_or_exhausted",
    "Verif.Implicit.C43_times",
    "Verif.Implicit.C43_constrained_drifts_partial",
    "Verif.Implicit.C43_prescribed_not_followed"
   ],
   "note": "Newmark relations, positions and momentum balance proved for every run. False of the code: prescribed displacements are applied only before the first step; afterwards a constrained node keeps its initial velocity (proved, with a concrete negation). Body forces are those of the beginning of the step."
  },
  {
   "property": "C44",
   "status": "partial",
   "theorems": [
    "Verif.LineSearch.C44_best",
    "Verif.LineSearch.C44_defined",
    "Verif.LineSearch.C44_multiphysics_increment",
    "Verif.LineSearch.C44_multiphysics_blind_partial",
    "Verif.LineSearch.C44_multiphysics_not_best"
   ],
   "note": "Mechanical analyses: proved in full (residuals up to 1e50). Multiphysics: false of the code, the first loop evaluates every candidate at the same configuration (negation proved); the increment is restored in both."
  },
  {
   "property": "C45",
   "status": "partial",
   "theorems": [
    "Verif.Nox.C45_never_rebuilt_partial",
    "Verif.Nox.C45_age_not_respected",
    "Verif.Nox.C45_every_call_partial"
   ],
   "note": "False of the code: a maximum age of two or more means that the preconditioner of the first call of a load step is never rebuilt in that load step (proved, with a negation for every such maximum age). With a maximum age of at most one it is rebuilt in every call."
  },
  {
   "property": "C46",
   "status": "partial",
   "theorems": [
    "Verif.Nox.C46_mechanics",
    "Verif.Nox.C46_multiphysics_accumulates_partial",
    "Verif.Nox.C46_multiphysics_history_dependent"
   ],
   "note": "Displacements only: proved. With fluid pressure false of the code: force and flow are added to those of earlier evaluations (closed form and negation proved)."
  },
  {
   "property": "C47",
   "status": "partial",
   "theorems": [
    "Verif.Dof.disjoint_always_partial",
    "Verif.Dof.layout_partial",
    "Verif.Dof.rows_one_to_one",
    "Verif.Dof.reinitialize_changes_layout"
   ],
   "note": "Proved for a first initialisation; a second one on the same object changes the layout (reinitialize_changes_layout)."
  },
  {
   "property": "C48",
   "status": "proved",
   "theorems": [
    "Verif.Tangent.C48_sparsity"
   ],
   "note": "For any number of degrees of freedom for each point and any distribution over processors."
  },
  {
   "property": "C49",
   "status": "partial",
   "theorems": [
    "Verif.Params.C49_consistent_partial",
    "Verif.Params.C49_refused",
    "Verif.Params.C49_plane_inconsistent",
    "Verif.Params.C49_plane_values"
   ],
   "note": "True for three-dimensional analyses. False of the code in plane strain and plane stress: the two-dimensional bulk modulus is used only if Young's modulus and Poisson's ratio are the constants given (negation proved). Exact real arithmetic."
  },
  {
   "property": "C50",
   "status": "proved",
   "theorems": [
    "Verif.Params.C50_block",
    "Verif.Params.C50_default",
    "Verif.Params.C50_neither",
    "Verif.Params.C50_refused",
    "Verif.Params.C50_second_run"
   ],
   "note": "For the first run of a process. The table is never cleared: C50_second_run says what a second run in the same process sees. Compiling a user formula is abstract; constants are passed as text with 16 digits."
  },
  {
   "property": "C51",
   "status": "partial",
   "theorems": [
    "Verif.Params.C51_bounded",
    "Verif.Params.C51_parabolic",
    "Verif.Params.C51_selected_partial",
    "Verif.Params.C51_cached"
   ],
   "note": "Bounds and continuity proved. False of the code for a second run in one process: the pointer of the first use is kept (negation proved, and the exact condition under which the selection is honoured)."
  },
  {
   "property": "C52",
   "status": "partial",
   "theorems": [
    "Verif.Outputs.C52_block_minimum",
    "Verif.Outputs.C52_block_sum",
    "Verif.Outputs.C52_block_maximum_partial",
    "Verif.Outputs.C52_block_maximum_wrong",
    "Verif.Outputs.C52_block_distribution",
    "Verif.Outputs.C52_unknown_block",
    "Verif.Outputs.C52_set_minimum",
    "Verif.Outputs.C52_set_sum",
    "Verif.Outputs.C52_set_maximum_partial",
    "Verif.Outputs.C52_set_maximum_wrong",
    "Verif.Outputs.C52_set_distribution"
   ],
   "note": "Minimum, sum and independence of the distribution in full. The maximum is false of the code for data that are nowhere positive, because the search begins at DBL_MIN, the smallest positive number (negation proved for all such data); true if some value is at least DBL_MIN."
  },
  {
   "property": "C53",
   "status": "proved",
   "theorems": [
    "Verif.Outputs.C53_nearest",
    "Verif.Outputs.C53_unique",
    "Verif.Outputs.C53_distribution",
    "Verif.Outputs.C53_value"
   ],
   "note": "For points whose squared distance is at most DBL_MAX and ids below INT_MAX; includes the value that is then reported. Exact real arithmetic."
  },
  {
   "property": "C54",
   "status": "partial",
   "theorems": [
    "Verif.Outputs.C54_linear_partial",
    "Verif.Outputs.C54_angular_partial",
    "Verif.Outputs.C54_lower_bound_partial",
    "Verif.Outputs.C54_blocks_wrong"
   ],
   "note": "False of the code for several blocks: the magnitudes of the momenta of the blocks are added (negation proved). True for one block with any distribution over processors; in general the output is an upper bound."
  },
  {
   "property": "C55",
   "status": "partial",
   "theorems": [
    "Verif.Outputs.C55_kinetic_sum",
    "Verif.Outputs.C55_kinetic_nonneg",
    "Verif.Outputs.C55_strain_sum",
    "Verif.Outputs.C55_strain_rigid",
    "Verif.Outputs.C55_strain_expansion_partial",
    "Verif.Outputs.C55_strain_negative"
   ],
   "note": "Kinetic energy in full; the strain energy is additive and vanishes under rigid motion. That it is non-negative is false of the code, which does not square the deviatoric extension (negation proved); true for uniform expansion."
  },
  {
   "property": "C56",
   "status": "proved",
   "theorems": [
    "Verif.Outputs.C56_critical_step",
    "Verif.Outputs.C56_distribution",
    "Verif.Outputs.C56_explicit_step",
    "Verif.Outputs.C56_fixed_step"
   ],
   "note": "For positive densities, moduli, volumes and horizons and bonded points at different positions; exact real arithmetic."
  },
  {
   "property": "C57",
   "status": "partial",
   "theorems": [
    "Verif.Params.C57_cubit_partial",
    "Verif.Params.C57_grain_partial",
    "Verif.Params.C57_fails",
    "Verif.Params.C57_throws",
    "Verif.Params.C57_analysis"
   ],
   "note": "False of the code in the discretization: the letters of GRAIN are searched as a set of characters (negation proved). True for prefixes without these capital letters, for the GRAIN convention, and for the ids of the blocks of the analysis."
  },
  {
   "property": "C58",
   "status": "partial",
   "theorems": [
    "Verif.Storage.C58_partial",
    "Verif.Storage.C58_repeat_accepted",
    "Verif.Storage.C58_minus_one"
   ],
   "note": "Interpolation after any sequence of requests, and rejection the first time, are proved. False of the code: a rejected time is accepted when it is requested again (proved for all files and histories), and a new loader asked for the time -1 delivers zeros."
  },
  {
   "property": "C59",
   "status": "partial",
   "theorems": [
    "Verif.Storage.C59_partial",
    "Verif.Storage.C59_late"
   ],
   "note": "False of the code: the values are written before they are computed; proved that the values written are those of the output before, and zeros at the first output."
  },
  {
   "property": "C60",
   "status": "partial",
   "theorems": [
    "Verif.Storage.C60_partial",
    "Verif.Storage.C60_names",
    "Verif.Storage.C60_accepted_iff",
    "Verif.Storage.C60_refused"
   ],
   "note": "False of the code for final times with more than six significant digits, because the time is written with the default precision: the restart is refused (proved for all such times). True for the others, for any sequence of solvers that follow one another."
  },
  {
   "property": "C61",
   "status": "proved",
   "theorems": [
    "Verif.Damage.C61_initial_damage",
    "Verif.Damage.C61_defined"
   ],
   "note": "Exact real arithmetic; the shapes of the filters are those of C16."
  },
  {
   "property": "C62",
   "status": "partial",
   "theorems": [
    "Verif.Damage.C62_evaluation_monotone_partial",
    "Verif.Damage.C62_bond_heals"
   ],
   "note": "False of the code: bonds broken in the first step are whole after the second. Proved instead: one evaluation never lowers a bond damage at step NP1."
  },
  {
   "property": "C63",
   "status": "partial",
   "theorems": [
    "Verif.Contact.C63_single_model_partial",
    "Verif.Contact.C63_fails"
   ],
   "note": "False of the code: the interactions are never consulted and every block uses the first contact model."
  },
  {
   "property": "C64",
   "status": "partial",
   "theorems": [
    "Verif.BC.node_list_exact_partial",
    "Verif.BC.node_list_refuses",
    "Verif.BC.empty_node_list_undefined",
    "Verif.BC.node_sets_localised",
    "Verif.BC.duplicate_node_set_refused"
   ],
   "note": "Lists without trailing white space; with it the last node is listed twice. An empty list reads an uninitialised variable."
  },
  {
   "property": "C65",
   "status": "proved",
   "theorems": [
    "Verif.BC.reactions_exact"
   ],
   "note": ""
  },
  {
   "property": "C66",
   "status": "proved",
   "theorems": [
    "Verif.Body.C66_force",
    "Verif.Body.C66_moment"
   ],
   "note": "Exact real arithmetic."
  },
  {
   "property": "C67",
   "status": "proved",
   "theorems": [
    "Verif.BC.initial_conditions_exact"
   ],
   "note": "Exact real arithmetic; conditions are evaluated at time zero, not at the initial time."
  },
  {
   "property": "C68",
   "status": "proved",
   "theorems": [
    "Verif.BC.prescribed_temperature_exact"
   ],
   "note": "Exact real arithmetic, for evaluations that succeed; at time zero with a different previous time the code computes 0/0 and terminates."
  },
  {
   "property": "C69",
   "status": "partial",
   "theorems": [
    "Verif.BC.thermal_flux_sets_zero",
    "Verif.BC.flux_ignored"
   ],
   "note": "False of the code: the condition sets the temperature to zero whatever the flux (negation proved)."
  },
  {
   "property": "C70",
   "status": "proved",
   "theorems": [
    "Verif.QuasiStatic.C70_follows",
    "Verif.QuasiStatic.C70_recovers",
    "Verif.QuasiStatic.C70_velocity"
   ],
   "note": "Purely mechanical analyses; exact arithmetic."
  },
  {
   "property": "C71",
   "status": "partial",
   "theorems": [
    "Verif.Nox.C71_inverse_partial",
    "Verif.Nox.C71_inverted_twice"
   ],
   "note": "Proved for every call in which the tangent is recomputed, in particular whenever \"Update Jacobian\" is one. False of the code otherwise: a call that rebuilds the preconditioner without recomputing the tangent inverts the inverse (negation proved)."
  },
  {
   "property": "C72",
   "status": "partial",
   "theorems": [
    "Verif.Nox.C72_mechanics",
    "Verif.Nox.C72_multiphysics_body_force_ignored",
    "Verif.Nox.C72_multiphysics_partial"
   ],
   "note": "Displacements only: proved. With fluid pressure false of the code: body forces are left out of the residual (negation proved)."
  },
  {
   "property": "C73",
   "status": "proved",
   "theorems": [
    "Verif.Nox.C73_follows",
    "Verif.Nox.C73_velocity_and_position"
   ],
   "note": "Displacements only. Of NOX it is assumed that it returns zero where its initial guess is zero and the residual always is, and, for positions, that it evaluates the residual last at the vector it returns."
  },
  {
   "property": "C74",
   "status": "proved",
   "theorems": [
    "Verif.Correspondence.C74_affine",
    "Verif.Correspondence.C74_singular",
    "Verif.Correspondence.C74_few_neighbors"
   ],
   "note": "Exact real arithmetic: in floating point a nearly singular shape tensor passes the test of the determinant."
  },
  {
   "property": "C75",
   "status": "proved",
   "theorems": [
    "Verif.Correspondence.C75_affine"
   ],
   "note": "Exact real arithmetic."
  },
  {
   "property": "C76",
   "status": "proved",
   "theorems": [
    "Verif.Correspondence.C76_linear_momentum"
   ],
   "note": "Exact real arithmetic."
  },
  {
   "property": "C77",
   "status": "proved",
   "theorems": [
    "Verif.Correspondence.C77_angular_momentum"
   ],
   "note": "Exact real arithmetic. The influence function used for the force and the one used for the shape tensor are two look-ups in the code, which agree unless the global one is changed after its first use (C51); the theorem assumes they agree."
  },
  {
   "property": "C78",
   "status": "proved",
   "theorems": [
    "Verif.Correspondence.C78_partial_stress"
   ],
   "note": "Exact real arithmetic; influence functions as in C77."
  },
  {
   "property": "C79",
   "status": "partial",
   "theorems": [
    "Verif.Correspondence.C79_not_orthogonal",
    "Verif.Correspondence.C79_rigid_partial",
    "Verif.Correspondence.C79_growth_partial"
   ],
   "note": "False of the code: the second-order term of the rotation increment has the wrong sign. Proved: the negation; exactly when a rigidly spinning point keeps an orthogonal tensor; the tensor never shortens a vector in any run."
  },
  {
   "property": "C80",
   "status": "proved",
   "theorems": [
    "Verif.Correspondence.C80_rate",
    "Verif.Correspondence.C80_rigid",
    "Verif.Correspondence.C80_elastic_rigid"
   ],
   "note": "Exact real arithmetic. The rate is the one turned back by the rotation tensor the code computes, see C79."
  },
  {
   "property": "C81",
   "status": "proved",
   "theorems": [
    "Verif.Correspondence.C81_hooke",
    "Verif.Correspondence.C81_free_expansion",
    "Verif.Correspondence.C81_symmetric"
   ],
   "note": "Exact real arithmetic."
  },
  {
   "property": "C82",
   "status": "proved",
   "theorems": [
    "Verif.Correspondence.C82_step",
    "Verif.Correspondence.C82_on_surface",
    "Verif.Correspondence.C82_history"
   ],
   "note": "Exact real arithmetic."
  },
  {
   "property": "C83",
   "status": "partial",
   "theorems": [
    "Verif.Correspondence.C83_not_exact",
    "Verif.Correspondence.C83_bounds_partial"
   ],
   "note": "False of the code (negation proved). Proved: the increment is at most the right one; on loading from the unstressed state at most half of it."
  },
  {
   "property": "C84",
   "status": "partial",
   "theorems": [
    "Verif.Correspondence.C84_not_consistent",
    "Verif.Correspondence.C84_step_partial",
    "Verif.Correspondence.C84_perfect_partial",
    "Verif.Correspondence.C84_virgin_partial",
    "Verif.Correspondence.C84_flaw_partial"
   ],
   "note": "False of the code: the yield stress uses a predicted plastic strain that is larger than the recorded one (negation proved). Proved: what each step does guarantee, the case of no hardening modulus, and the flaw."
  },
  {
   "property": "C85",
   "status": "partial",
   "theorems": [
    "Verif.Params.C85_one_to_one_partial",
    "Verif.Params.C85_parameters",
    "Verif.Params.C85_fails"
   ],
   "note": "False of the code: naming one block twice and leaving another out is accepted (negation proved). True if there is a default definition or no name is repeated."
  },
  {
   "property": "C86",
   "status": "proved",
   "theorems": [
    "Verif.Correspondence.C86_step",
    "Verif.Correspondence.C86_run",
    "Verif.Correspondence.C86_rigid"
   ],
   "note": "Exact real arithmetic, for stretches with positive quadratic form: the code ignores the return code of inverting trace(V)I-V, which can only fail otherwise."
  },
  {
   "property": "C87",
   "status": "partial",
   "theorems": [
    "Verif.Tangent.C87_assembly_defined_partial",
    "Verif.Tangent.C87_thermal_defined_partial",
    "Verif.Tangent.C87_isolated_terminates",
    "Verif.Tangent.C87_thermal_isolated_terminates"
   ],
   "note": "False of the code for a mesh with a point that has no neighbors: termination proved for every such mesh. Proved if every point has a neighbor. Evaluation of the material is abstract; the hypothesis asks only for the evaluations that are made. For analyses with displacements or temperatures as unknowns; both together is C91."
  },
  {
   "property": "C88",
   "status": "proved",
   "theorems": [
    "Verif.Tangent.C88_central_difference",
    "Verif.Tangent.C88_block_diagonal",
    "Verif.Tangent.C88_thermal"
   ],
   "note": "Exact real arithmetic. Evaluation of the material is abstract, a function of the data of the points of one neighborhood."
  },
  {
   "property": "C89",
   "status": "partial",
   "theorems": [
    "Verif.Tangent.C89_newton_matrix_partial",
    "Verif.Tangent.C89_not_the_derivative"
   ],
   "note": "False of the code: the stiffness in the matrix is multiplied by the volume, the residual is not (negation proved with two points of volume two joined by a spring). True for points of volume one."
  },
  {
   "property": "C90",
   "status": "partial",
   "theorems": [
    "Verif.Tangent.C90_block_diagonal_defined_partial",
    "Verif.Tangent.C90_elastic_plastic_terminates"
   ],
   "note": "False of the code for the elastic-plastic materials, which do not hand the kind of tangent on: termination proved for every mesh that has a point. True for materials that use the base class if every point has a neighbor (otherwise C87)."
  },
  {
   "property": "C91",
   "status": "partial",
   "theorems": [
    "Verif.Tangent.C91_coupled_undefined"
   ],
   "note": "False of the code: undefined behaviour proved for every neighborhood with two points (a point alone terminates, C87). The positive statements for displacements alone and temperatures alone are C87."
  },
  {
   "property": "C92",
   "status": "partial",
   "theorems": [
    "Verif.Outputs.C92_warning_if_tied",
    "Verif.Outputs.C92_tied_if_warning_partial",
    "Verif.Outputs.C92_spurious_warning"
   ],
   "note": "A tie is always reported. That nothing else is reported is false with several processors: a tie among points of one processor that are not nearest is reported too (negation proved); true on one processor."
  },
  {
   "property": "C93",
   "status": "partial",
   "theorems": [
    "Verif.Outputs.C93_linear",
    "Verif.Outputs.C93_angular_reversed"
   ],
   "note": "Linear momentum as claimed. For the angular momentum false of the code: its sign is reversed (proved for all states)."
  },
  {
   "property": "C94",
   "status": "partial",
   "theorems": [
    "Verif.Storage.C94_hex_partial",
    "Verif.Storage.C94_tet_partial",
    "Verif.Storage.C94_nodes",
    "Verif.Storage.C94_one_sided"
   ],
   "note": "For meshes of hexahedra or of tetrahedra with distinct ids and one entry for each pair found from the element with the smaller id; false of the code if only the element with the larger id has the other as neighbour (negation proved)."
  },
  {
   "property": "C95",
   "status": "partial",
   "theorems": [
    "Verif.Storage.C95_partial",
    "Verif.Storage.C95_overwritten"
   ],
   "note": "True if the directories are those written by the analyses so far; false otherwise, for example if the user keeps a copy whose name has no number (negation proved)."
  },
  {
   "property": "C96",
   "status": "partial",
   "theorems": [
    "Verif.Storage.C96_partial",
    "Verif.Storage.C96_lost"
   ],
   "note": "True for stops at a multiple of the time step with at most six significant digits, forces that do not depend on the number of steps, and if what is not stored is the same in the new analysis; false for other stops (negation proved). Exact real arithmetic."
  },
  {
   "property": "C97",
   "status": "partial",
   "theorems": [
    "Verif.Energy.C97_partial",
    "Verif.Energy.C97_defined",
    "Verif.Energy.C97_broken"
   ],
   "note": "Proved for all bodies without damage, along all directions. False of the code when bonds are broken, because the weighted volume still counts the broken bonds (negation proved for all moduli with mu not zero). Exact real arithmetic."
  },
  {
   "property": "C98",
   "status": "proved",
   "theorems": [
    "Verif.Energy.C98_nonneg",
    "Verif.Energy.C98_zero_iff",
    "Verif.Energy.C98_frame"
   ],
   "note": "For positive moduli, volumes and weighted volumes, non-negative influence functions and damage at most 1; the second part without thermal strains. Exact real arithmetic."
  },
  {
   "property": "C99",
   "status": "partial",
   "theorems": [
    "Verif.Outputs.C99_partial",
    "Verif.Outputs.C99_difference"
   ],
   "note": "False of the code: the external force is left out. Proved that the field is right exactly for the components without external force, and what the difference is."
  }
 ]
}