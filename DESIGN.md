# Formal model of MEDCoupling (Lean 4)

## Trusted base

* Lean 4.33.0's kernel. Theorems may depend on `propext`, `Classical.choice`, `Quot.sound` and on nothing else
  (no own axioms, no `sorry`, no `native_decide`/`bv_decide`).
* The hand translation from C++ to Lean: every Lean definition cites the file and lines it models, and says where it
  simplifies. `/repo` was read as text; nothing was compiled or run.
* `mcIdType`, the element type `T` of integer arrays, `std::size_t` and `int` are modelled by unbounded `Int`/`Nat`:
  **overflow is not modelled** unless a definition says so. Floating-point values are modelled as exact rationals (or an
  arbitrary field) where arithmetic is involved: **rounding is not modelled**.
* `std::sort`, `std::set`, `std::map`, `std::copy`, ... are modelled by their standard specification.
* Not modelled: allocation failure, threads, I/O, the Python layer, text of error messages, component/array names
  unless a definition says so.

## Execution model (`Verif/Base.lean`)

A C++ function is a total Lean function into `M α = Except Err α`. `Err.exn` = an `INTERP_KERNEL::Exception` is thrown;
`Err.ub` = an out-of-bounds access (undefined behaviour). Arrays are lists accessed through the checked `rd`/`wr`;
memory fresh from `malloc`/`new[]` is `none`. `wp` is a three-outcome Hoare logic in which undefined behaviour is never
allowed, so `wp m Q False` means "returns normally with Q", `wp m Q E` "returns with Q, or throws and E".

## Layout of the Lean project

For each area: `X.lean` (model, one definition per C++ function, with citation), `XSpec.lean` where a specification is
needed (small, independent of the model), `XProps.lean` (theorems named after the property ids, each with an `example`).

## Properties

### C01 Slice length is the length of the arithmetic progression

Model: the four slice helpers, C++ truncating division as `Int.tdiv`. Spec: the progression `begin + k*step`, `k < n`, and 'before end'. Proof: case analysis on the sign of step, integer division lemmas.

### C02 Splitting a slice in n parts is an exact ordered partition

Model: GetSlice / splitInBalancedSlices. Spec: concatenation of the enumerations = the enumeration of the slice. Proof: telescoping of cut points.

### C03 The dynamic buffer behaves as a list under every history of operations

Model: heap of blocks + MemArray state machine (capacity, buffer with uninitialised cells, nbElems, ownership). Spec: pure list. Proof: refinement relation preserved by every operation, induction over the history. Findings: `writeOnPlace` accepts ids that make it write past the buffer after growth (`C03_writeOnPlace_overflow`), inserting an array at the end of itself uses freed memory (`C03_aggregate_self_uaf`).

### C04 renumberInPlace is an atomic checked renumbering

Model `Verif/Renumber.lean` (loops on the flat buffer with a temporary). Spec: `IsScatter`/`IsGather` tuple-wise equations. Proof: loop invariants; atomicity since the copy back happens after the checked loop.

### C05 renumber and renumberR are mutually inverse gathers/scatters

Model: unchecked scatter/gather loops on flat buffers. Proof: loop invariants; permutations as bijections of `Fin n`-like ranges.

### C06 renumberAndReduce drops exactly the negatively numbered tuples

Same as C05; uninitialised cells are `none`, so 'left unwritten' is expressible.

### C07 Inverse permutation construction

Model: checked inversion loops. Proof: loop invariants. Finding: a non surjective array leaves uninitialised cells (`C07_uninitialised`).

### C08 Checked tuple selection is safe and exact

Model: checked loops with copy of tuples. Proof: loop invariants + characterisation of throwing. Findings: `selectByTupleIdSafeSlice` does not check the range (`C08_selectSlice_unsafe`); `subArray` with begin > end is undefined behaviour (`C08_subArray_inverted`).

### C09 checkAndPreparePermutation yields the sorting rank permutation

Model `Verif/Perms.lean`. Spec: order isomorphism with the ranks, `IsPermArr`. Proof: std::sort/unique/map lemmas; the duplicate version through occurrence ranks.

### C10 Per level numbering is a stable counting sort

Model: level map, offsets, running counters. Spec: lexicographic order (level, position). Proof: closed formula for the result then counting.

### C11 changeSurjectiveFormat builds exactly the preimages

Model: vector of vectors then flattening. Spec: `IsSky` with groups `positionsOf`. Proof: loop invariant.

### C12 Union, intersection of id arrays are the set operations

Model `Verif/SetAlg.lean` over `Verif/StdAlg.lean` (std::set as strictly sorted list). Spec: membership + strict order. Proof: induction.

### C13 Complement and substraction are exact

Model: marks array; std::set_difference. Findings: the optimised version is only right when other is included in this.

### C14 Duplicate removal

Model: std::unique, marks on the value span. Finding: signed overflow on the empty array.

### C15 Offsets and deltas are inverse

Model `Verif/Index.lean` (one definition per function). Proof: loop invariants on partial sums.

### C16 Explicit expansion of ranges

Model: counting pass, exactly sized buffer written through a cursor (`Verif/Cursor.lean`). Spec: flatMap of integer intervals. Proof: the cursor always has room for what remains.

### C17 Range lookup decomposes ids

Model: first containing interval by linear search. Spec: `firstRange` characterised by membership.

### C18 Extraction from indexed arrays

Model `Verif/SkyOps.lean`: two passes as in the sources, checked accesses. Spec: `IsSky` of the list of selected groups. `C18_extract` needs no well-formedness.

### C19 Replacement inside indexed arrays

Model: marks, size accounting, copy through a cursor. Spec: groups by position. Proof: the size computed by the first pass equals the total size of the new groups, which is where distinct ids are needed.

### C20 Removal of ids from indexed arrays

Model: set of ids, scan. The behaviour for every offset is `removeIds_spec`; it differs from the documentation for offset > 0, so the claim is kept as partial.

### C21 MakePartition computes the coarsest common refinement

Model: signatures as 64-bit words (Nat with testBit), hash map as association list. Proof: bit invariant, then injectivity of the numbering.

### C22 Partition by value

Model: counters in a map, exactly sized groups filled from the left. Proof: loop invariants; positions specified by `positionsOf`.

### C23 Interlacing conversions are mutually inverse

Model `Verif/Layout.lean`. Nested loops writing through a cursor (`emit_grid`), in-place swaps, three-copy rotation. `std::copy` inside one array has two readings: strict (overlap undefined) and memmove; both are treated. Specs by element index or by tuple.

### C24 Sub-part lookup

Model: position map + lookups. Spec: `IsLookup`. Finding: `C24_buildPermutationArr_not_perm`.

### C25 Linking of pairs into chains

Model `Verif/Chains.lean`: a `PairAggregator` is the list of its pairs, `front`/`back` of an empty list undefined, the loops of `findMaxLengthLines` with fuel (exhaustion = undefined, excluded by the theorems). Proof: `Path u l v`; permutation of unoriented pairs; a pass without merge means no common extremity. Completeness: a node of odd degree in a path is an extremity, so chains of a graph of degree at most 2 are node-disjoint, contradicting connectivity.

### C26 Reference counting destroys exactly once, never early

Model `Verif/RefCount.lean`: heap of objects with counter, liveness flag and owned fields; destruction releases the fields recursively (fuel, excluded by the theorems); any access to a dead object is undefined. Proof: `Consistent` (counter = number of owners), a `Pending` hole for the reference being moved. Threads: atomic increments/decrements in any interleaving.

### C27 Memory accounting of an object graph counts each reachable object once

Model `Verif/ObjGraph.lean`: objects are numbers, `std::set` of pointers as a list without duplicates (only membership matters for the sums). Loops with fuel. Spec: `Relation.TransGen`/`ReflTransGen` of the child relation, `Nodup` list of exactly the reachable objects.

### C28 Time labels never miss a modification

Model `Verif/TimeLabel.lean`: global counter, a label and a list of direct parts per object. Wrap-around of the counter is out of the model (unbounded naturals).

### C29 Part definitions compose as functions

Model `Verif/PartDef.lean`, on top of `Range`, `isRange`, `selectByTupleIdSafe(Slice)`. Spec: `Denotes`, `Forall₂` for the composition, `Perm` for the sum.

### C30 Recognition of arithmetic progressions

Model `Verif/Scan.lean`, `Verif/Slices.lean`. Spec: `SliceOk`, `IsTermCount`, `progression`; the negative answer is also characterised (no slice describes the array).

### C31 Splitting values by ranges

Model: search from the last bound. Spec: `IsCast`, unique.

### C32 Monotonicity tests

Model: the loop comparing with the previous value. Spec: `List.Pairwise`.

### C33 Indexed groups to old-to-new numbering

Model: marks -(i+2), -1, then renumbering. Spec: representative `repOf` (first element of the group). Proof: invariant relating each cell to the rank of its representative.

### C34 Aggregation concatenates

Model: checks, exactly sized buffer. Spec: concatenation, `skyIdx`.

### C35 Translation by an index table

Model: in-place loop returning the outcome and the content reached; result arrays with checked writes; cursor of exactly the counted size.

### C36 Search for sequences and tuples

Model: `std::search` by its specification, the restart logic of the tuple searches with fuel. Spec: increasing list of the tuple ids / first position.

### C37 Ranges found in a list of ids

Model: two cursors; endless loop modelled as `undef` by fuel. Findings as theorems.

### C38 Grouping of ids by pairs

Model: `std::map<T,std::set<T>>` as sorted association list, second pass as a fold over its entries (dereferencing `find` = end is undefined). Proof: invariants GoodEntry (connected), cover. The overlap of groups is proved on an example.

### C39 Numbering of the cells and nodes of a structured grid

Model `Verif/Struct.lean`: a structure is the list of sizes, C++ division is `Int.tdiv` with division by zero undefined, the 32 bit `std::accumulate` is modelled with wrap-around. Spec: `lin` (row-major number), `InGrid`. Number of axes arbitrary in the proofs.

### C40 Nodal connectivity of a structured grid

Model `Verif/StructConn.lean`. Spec: `IsCorner` (node position = cell position plus 0 or 1 on each axis), the reference order as explicit tables `unitCorners`/`mirrorCorners`.

### C41 Boxes of cells of a structured grid

Model `Verif/Struct.lean`; nested loops over a box are iterations over `boxPos` (the positions in loop order). Spec: `IsBoxList` (strictly increasing list of exactly the ids of the positions in the box), unique by `IsBoxList.unique`. `IsPartStructured`: what is left in the output vector on the answer false is not modelled.

### C42 Algebra of boxes in compact format

Model `Verif/Struct.lean`. Spec: `InBox`, pointwise membership of positions.

### C43 Smallest box around the marked cells of a structured grid

Model `Verif/StructMin.lean`: the three variants are one loop over `boxPos` with a pair of extrema per axis; initial extrema `±(2^63-1)` as in C++. Spec: `MarkedCell`, minimality against every box.

### C44 Reverse nodal connectivity of a structured grid

Model `Verif/StructConn.lean`: the loops over borders and inside written as in C++ into a partially filled buffer. Spec: `IsSky` with groups = increasing lists of the cells having the node as corner. Negative sizes are treated as a throw in the 2D/3D variants.

### C45 Mesh of the faces of a structured grid

Model `Verif/StructConn.lean`. Spec: `IsFace`, table `faceCorners`; proof in `Verif/StructFaces.lean`.

### C46 Signatures of the marks per axis

Model `Verif/StructMin.lean`. Spec: the value is the length of a list without repetition of exactly the marked cells of the slab.

### C47 Reference cells: the sons of a cell are its edges or a closed oriented surface

Model `Verif/CellModel.lean`: the whole table of `CellModel.cxx` and the functions reading it. Spec: oriented edges of a face from the order of its nodes (`edgesOf`), closedness as a permutation of the list of oriented edges by reversal. Proof: facts on the positions of the table, checked by `decide` for all 26 entries (the whole domain), carried to arbitrary connectivities by naturality; polygons and polyhedra by induction. Finding: HEXA27 announces 2^32-1 edges (`C47_hexa27_no_edges`).

### C48 Inverting the orientation of a cell

Model `invertCell`, `changeOrientationOf2D/1D` in `Verif/CellModel.lean`. Spec: `edgesOf` of the result is a permutation of the reversed edges; `OppositeSurface` for 3D. Proof: index equations for polygons; positions by `decide` plus naturality for static types. Findings: SEG3 exchanges an end with the middle node, TRI7/QUAD9 overflow a temporary, a polyline is not reversed.

### C49 Comparing the orientation of two cells on the same nodes

Model `orientationStatus` in `Verif/CellModel.lean` with `std::search`. Spec: `List.IsRotated`. Proof: a list of equal length is an infix of the doubled list iff it is a rotation. Finding: quadratic 2D cells never compare as equally oriented.

### C50 Extrusion of a reference cell

Model `buildExtruded` in `Verif/CellModel.lean`. Spec: sons of the extruded cell, `OppositeFace`. Proof: as C47.

### C51 Unstructured mesh: every history of construction calls gives the list of accepted cells

Model `Verif/UMesh.lean`. Spec: an abstract mesh (`AMesh`: dimension, number of nodes, list of cells) with its own transition function; `IsMesh conn connI cells` says that the two arrays hold the cells. Proof: simulation by induction on the history. Finding: `getTypeOfCell` of a negative id reads outside (`C51_negative_cell`).

### C52 Consistency checks of an unstructured mesh accept exactly the usable meshes

Spec: `GoodCell`, `Usable` on the abstract mesh; `Checks m P` = returns when P, throws otherwise. Findings: the geometric check refuses every polyhedron that has two separators (`C52_geom_refuses_polyhedra`), an index array that goes past the connectivity is followed (`C52_bad_index`), a mesh of dimension -1 passes the check but the geometric check dereferences null arrays (`C52_geom_null`).

### C53 Reverse nodal connectivity of an unstructured mesh is the exact transpose

Proof: the two nested loops are flattened into one loop on the pairs (node, cell); counting and filling are a sort by buckets (`count_fold`, `fill_fold`, invariant: each group = what is already placed followed by -1). Finding: unchecked node ids (`C53_unchecked_node`).

### C54 Nodes in use and counts per cell

Spec: `UsedNode`; the old to new array is characterised as the inverse of the increasing list of used nodes. Proof: marking loop invariant (`mark_fold`), running number (`accVisit_spec`).

### C55 Renumbering of nodes in the connectivity and zipCoords keep the geometry

Spec: `Cell.mapNodes`. Proof: invariant of the in place loop (first cells rewritten, others as they were, same offsets); zipCoords by C54 and C06.

### C56 Renumbering, extraction and replacement of cells

Proof: cursor invariants on the rows of the cells, `C07_inverse`, `C09_rank`, `C19_set_part`, `C19_same_idx`. Finding: without check a repeated value reads uninitialised memory (`C56_renumberCells_repeated`). setPartOfMySelf with repeated ids of different sizes inherits the overflow of C19.

### C57 Comparison policies of two cells

Model `Verif/CommonCells.lean` (`cellsEqual`). Spec: `SameCell p c c'` in terms of lists (`List.IsRotated`, membership). Findings: policy 0 documented as comparing the types does not (`C57_policy0_ignores_type`); on quadratic faces the rotation mixes corners and middles (`C57_policy1_quadratic`).

### C58 findCommonCells finds exactly the classes of equal cells

Spec: `CommonGroups` (on the list of cells and `SameCell`). Proof: the candidates are all the cells holding all nodes (`candidatesOf_spec`, by C53), pool = class (`pool_spec`), loop invariant `CommonInv`. Findings: closed polyhedra reported as equal to themselves (`C58_lone_polyhedron`), policy 7 stores a wrong id and can write outside (`C58_policy7_wrong_id`).

### C59 zipConnectivityTraducer removes the duplicate cells and nothing else

Spec: `ClassNumbering` (same number iff same class; order of first members; onto). Proof: C58, C33_o2n (weakened to groups which may repeat members), C07_invertO2N, C56_buildPart.

### C60 Merge, fusion and inclusion of meshes on the same coordinates

Proof: cursor invariant on the concatenation (`skyIdx_append`); C59 on the concatenated cells; for the inclusion the numbers up to the largest of the first part are exactly the numbers of this mesh. Findings: with duplicates in this mesh a missing cell gets a valid id (`C60_missing_cell_valid_id`); an empty mesh throws (`C60_empty_this`); areCellsIncludedInPolicy7 does not find a mesh in itself (`C60_policy7`).

### C61 Gradual spread from seeds reaches exactly the cells within the given depth

Model `Verif/Spread.lean` (loop with fuel, shown sufficient). Spec: `Within R S n x` (within n steps) and `Relation.ReflTransGen`. Proof: invariant `SpreadInv` of the breadth first rounds. Finding: the documentation says negative neighbours are ignored, the code uses them as indices (`C61_negative_neighbour`).

### C62 PartitionBySpreadZone splits the cells into connected components

Proof: invariant `ZonesInv` on the list of zones: the marks are the union of the zones, the next seed is the least cell not marked, the spread avoids the marks (`within_avoid`).

### C63 buildDescendingConnectivity lists every face once and gives both correspondences

Model `Verif/Desc.lean`; spec `IsDescending`, `ownersOf`, `BoundaryOf` in `Verif/DescProps.lean`, `Verif/DescThm.lean`; the sub cells themselves are characterised by C47. Proof: generation of the sub cells (`descNoFuse_spec`), search of common cells (C58), numbering of classes (C33, C59), increasing positions of the groups (`revDesc_loop`). Findings: faces are compared as sets of nodes (`C63_sets_of_nodes`); a cell with a repeated node is listed twice for its degenerate edge (`C63_degenerate`).

### C64 buildDescendingConnectivity2 signs the faces by orientation

Spec `IsSigned`; proof `descValue_spec`, `signed_rel` and C49 for the orientation. Finding: for quadratic faces of 3D cells a second cell always gets the opposite number, even when it covers the face the same way (`C64_quadratic_signs`).

### C65 Edges of 3D meshes and micro edges of 2D meshes are listed once with both correspondences

Spec `EdgesOf3D`, `EdgesOnce`, `microOf`. Proof: instances of `descending_spec`. Finding: `explodeMeshIntoMicroEdges` on any 3D mesh throws since both cases of its switch use the generator for dimension 2 (`C65_micro_edges_3D`).

### C66 Neighbours of cells through shared faces, and spread zones

Neigh.lean models the three functions over the descending connectivity of Desc.lean and the spread of Spread.lean. NeighProps.lean: `C66_adv` (blocks from any descending connectivity), `C66_neighbours` (the blocks in terms of the sub cells of C47/C63), `C66_symmetric`, `C66_zones` (zones are the classes of the relation "linked by a chain of shared faces"), and the finding `C66_repeated`: a neighbour sharing two faces is given twice, which the documentation does not say.

### C67 Skin and boundary of a mesh

Neigh.lean models the functions; SkinProps.lean: `IsFree` (a sub cell with no other sub cell on the same nodes), `C67_skin`, `C67_cells_on_boundary`, and the finding `C67_closed_surface`: buildBoundaryMesh takes the address of the first element of an empty vector when the mesh has no boundary.

### C68 Neighbours of nodes along the edges

Neigh.lean models the function: explode3DMeshTo1D or the descending connectivity, reverse connectivity, then the reading of three values per edge. NodeNeigh.lean: `Follows` (cyclic successor), `C68_neighbours_1D`, `C68_neighbours_2D`, `C68_neighbours_3D`, `C68_dimension`, and the finding `C68_quadratic`: the stride 3 is wrong for quadratic edges, one quadratic triangle gives a middle node of the opposite edge as a neighbour of a corner.

### C69 Nodes of a same cell, cells around the nodes of a cell

Neigh.lean models the two functions (sets as strictly sorted lists, the second array of the first function as uninitialised memory written group by group). EnlNeigh.lean: `C69_enlarged`, `C69_cells_from_nodes`, `C69_share_node`, `C69_index_length`.

### C70 Cells lying on nodes and on a mesh of faces

Neigh.lean models the functions. LyingOn.lean: `C70_lying_on_nodes`, `C70_lying_on` (with `LiesOn` stated with the sub cells of C47), and the finding `C70_order_of_types`: a triangle shared by a tetrahedron and a polyhedron is found or not according to which of the two cells comes first.

### C71 Blocks of cells of the same type

CellTypes.lean models the three functions with the find_if loops as written; CellTypesRuns.lean proves them against a definition of contiguity by indices.

### C72 Sorting the cells by type

CellTypes.lean models the functions on top of the models of buildPermArrPerLevel (C10) and renumberCells (C56); CellSort.lean proves them. The first loop of rearrange2ConsecutiveCellTypes is modelled with a fuel, and the finding is proved for every fuel.

### C73 Profiles split by type and put together again

CellTypes.lean models both functions, CellProfile.lean proves the splitting against a filter of the profile by type, CellConsist.lean the checking, the round trip and the findings.

### C74 Cells picked, split and aggregated by type

CellTypes.lean models the functions. CellPick.lean proves the split against maximal blocks of equal types (shown to be unique), the picks against filters and counts; CellKeep.lean proves keepSpecifiedCells; CellAgg.lean proves the aggregation: the blocks of the result, filtered by type, are the blocks of the inputs filtered by type.

### C75 Conversions between unstructured meshes and meshes with a single type

OneGT.lean models the constructors from an unstructured mesh, the conversions back and the aggregation with uninitialised output buffers. OneGTProps.lean proves them against lists of cells: IsStatic n conn rows (the nodes are the rows one after the other, n per row) and IsWindows conn connI rows (the index cuts the rows out of the nodes).

### C76 Parts, renumbering, packing and merging of meshes with a single type

OneGTParts.lean models the functions over the two arrays; OneGTPartsProps.lean proves them against lists of cells (IsStatic, IsWindows, IsSky), the renumbering against the permuted list of cells and the merges against the concatenation of the cells, shifted by the number of nodes of the previous meshes.

### C77 The search trees over boxes and points return exactly what a plain scan of the elements returns

Model: `Verif.BBTree` (one construction `btBuild` and one descent `btCollect` for the trees). Numbers are elements of an ordered ring, so roundings are not modelled; `nth_element` is the element of the sorted list; the square root is a parameter which is non negative and squares to its argument. Proof: each node bounds its two sons (`BT.Inv`), so that a pruned son holds no answer; the elements of the leaves are a permutation of the given ones. Finding `C77_epsilon`: the documentation says that a positive epsilon enlarges the boxes; for the search by a box a larger epsilon returns fewer boxes.

### C78 The searches of the boxes closest to a point lose no closest object and are exact for a single point

Model: `Verif.BBTreeClosest` (the tree with its mutable `_min` and `_candidates`). Specification `IsCandidate`: the box has a point not farther than the farthest point of any box, in terms of points of boxes and squared distances only. Proof: `refineMax_ok` follows the refined bound through the tree with any leftover candidates. Findings: `C78_stale_candidates` (`filter` leaves the candidates of the leaves under a discarded inner node, so that a later point gets boxes of an earlier one, twice or wrongly), `C78_dst_points_lost` and `C78_blocks_points_lost` (a strict comparison drops everything when the boxes are single points), `C78_deserialize_wrong` (the full deserialisation reads the elements at the wrong position as soon as there are two leaves).

### C79 The distances from a point to a segment and to a triangle are the smallest distances to their points

Model: `Verif.PtDist`, branch by branch, over an ordered field with the square root as a parameter (roundings are not modelled). Specification: `OnSeg2`, `OnSeg3`, `InTri3` (points given by parameters), `sq2`, `sq3`, `IsDist3` (reached and not larger than any distance). Proof: the squared distance is a convex quadratic function of the parameters; in every branch the slopes towards the triangle are not negative (`TriBest`), from the signs tested by the branch. Findings: in the two corner regions the helper adds the wrong square of edge length (`C79_triangle_too_far`, `C79_triangle_too_close`); the threshold on the area is absolute (`C79_triangle_small`).

### C80 distanceToPoints gives the distance to the mesh and a cell at this distance; the boxes of the cells are exact

Model: `Verif.MeshDist` on top of the tree of `Verif.BBTreeClosest`. The boxes are appended cell by cell instead of written in place; the distance to quadrangles and polygons is a parameter; quadratic cells are excluded. Proof: `onePoint` combines `C78_dst` and `C78_dst_closest` (a closest cell is among the candidates) with the loop over the candidates; `C79_segment2` and `C79_triangle` give the distance of one cell. Findings: `C80_not_first_cell` (the documentation announces the first cell id, the candidates come in the order of the tree), `C80_point_cell_lost` (no candidate when the closest cell is a single point: `&elems[0]` of an empty vector), `C80_surface_too_far` (the finding of C79 seen from the mesh).

### C81 A remapping gives the weighted sums of the nature of the field, and keeps what the nature promises

Model: `Verif.Remapper` over an ordered field (roundings are not modelled, a division by zero gives zero). The computation of the matrix from the geometry is not modelled: the matrix is given, as with setCrudeMatrix. Specification: `coef` (coefficient of the matrix), `denomOf` and `denomRevOf` (the denominators, from the matrix and the measures), `rtup` (component of a tuple), `RemReach` (states after any history). Proof: the invariant `RemInv` says that the rows of denominators have columns of the matrix only, so that a new computation aligns them with the matrix (`setKeys_eq`). Findings: `C81_global_mean_lost` (intensive conservation towards a mesh of dimension -1 divides by the conventional measure, the sum is put in the wrong array), `C81_target_not_checked` and `C81_source_not_checked` (write outside the array of a receiving field which has fewer entities than at the preparation).

### C82 The crude matrix of a remapper can be reduced, transposed and built from the matrices of extruded meshes

Model: `Verif.Remapper`. The matrix which receives the convolution starts empty. Proof: `mono_loop` and `mono_foldlM` (loops which only add places), `Building` (only right values) and `Grows` (no place is lost). Finding: `C82_removed_after_transfer` (a removal after a transfer leaves denominators of removed coefficients, and the next transfer reads them at the wrong places: a uniform field is not kept).

### C83 A written expression is evaluated to the value which its operators, brackets and functions mean

Model: `Verif.ExprEval`, function by function, texts as lists of characters. Specification: `Verif.ExprSpec`: written expressions `Cst`, their text `Cst.str`, the rules `Cst.WF` and the value `Cst.ev`, which use nothing of the parser. Proof: `fillValues_eq` (ExprFill: the numbers are replaced by their ranks, every position followed), `parseDeep_eq` (ExprParse, ExprScan: by induction on the length, the scanning loops cut exactly at the operators of the current precedence), `replace_tree` (the numbers come back), `evalTree_eq` (the stack machine computes the value). The hypothesis `LongLits` is forced by the stale length in fillValuesInExpr (`C83_finding_fourteen`). Not modelled: the generation of machine code (applyFuncFast32/64), units.

### C84 applyFunc computes each value of the result from its tuple, with the variables bound as announced, and the safe mode only refuses

Model: the end of `Verif.ExprEval` (link phase, evaluation on a stack, the three methods of DataArrayDouble; results as uninitialised memory written value by value). Specification: `Binds` (the values of the names), `Known`, `Cst.ev`. Proof: `linked` (link phase), `named_wp` (the two loops), `trueVars_spec` and `sorted_unique` (the set of variables is the sorted list). Findings: `C84_finding_message` (`ptr` is already moved when the message adds `oldNbOfComp*i`), `C84_finding_unit_alone` (`_ref_pos` is read without having been set), `C84_one_constant` (the safe mode is ignored).

### C85 A block topology puts every element on one processor and knows it both ways

Model: `Verif/BlockTopo.lean` (all constructors, `globalToLocal`, `localToGlobal`, `getNbLocalElements`, `serialize`, `unserialize` of `BlockTopology`; `ComponentTopology`). A processor group is the list of the world ranks; the calling rank is a parameter; the result of `allGather` is a parameter; numbers are natural. `Built` is the closure of the constructors a user can call. The theorems are stated with the API functions only: they are inverse of each other, counts add up, sizes of blocks. Findings are concrete runs.

### C86 The exchange between two distributions of the same elements brings every value to its place

Model: `Verif/Collective.lean` (`MPI_Alltoallv`: buffers with possibly uninitialised cells, counts and positions of both sides, mismatch is undefined) and `Verif/StructDec.lean` (`prepareSourceDE`, `prepareTargetDE`, counters, packing, unpacking, the prints, all processors together). The broadcast of the topologies is `unserialize` of `serialize`. `DecOk` gathers the hypotheses; they are satisfied by an example beside the theorem. The claim compares `src` and the result through `globalToLocal` of both topologies only.

### C87 The overlapping parts of two distributed meshes are shared out, each pair to one processor

Model: `Verif/OverlapLoc.lean` (boxes gathered end to end, interaction lists, the three sharing algorithms; the last two run a loop with fuel, the theorem says that from some number on every fuel gives the same lists). Coordinates are in an ordered field. Proof in `Verif/OverlapLocProps.lean`: every couple is marked on its processors as removable or fixed; a round removes one couple from one processor and fixes it on the other, or closes a processor, so the work left decreases. The lists of pairs of the hypothesis are the ones `C87_pairs` gives: increasing lists of ranks.

### C88 The exchange of meshes between processors never blocks and brings the meshes needed

Model: `Verif/MsgPass.lean` (processors with lists of blocking sends and receives; a send may end at once, its message waits in the queue of its source, destination and tag, or meet its receive) and `exchangeProg` in `Verif/OverlapLoc.lean` (receives from lower ranks, sends, receives from higher ranks, five messages per mesh with their tags). What a message contains is a parameter. Proof: the programs follow one common order of all messages (by sender, destination, source or target mesh, number), and programs with a common order never block (`msg_progress_any`), end (`msg_ends`) and receive in that order (`msg_done`).

### C89 A field sent by OverlapDEC is the weighted mean over all processors

Model: `Verif/OverlapMap.lean`, function by function: the contributions kept by each processor, the three collective exchanges of the matrices (sizes, row starts, then columns and values), the final matrices, the denominators, the compressed values sent and received, the product and the default value. The specification lists the values of all matrices with the cells numbered on their own processors (`allContribs`), whoever has computed them. Proof: `prepareAll_ok` (`Verif/OverlapMapProps.lean`) describes what every processor holds after the preparation; `contribs_perm` says that it holds each value about its target once; `apply_ok` follows the product value by value. Read but not modelled: `computeDenoRevIntegral` takes the area of the target cell by row number and not by the cell numbers sent (the natures which use it are not offered by OverlapDEC), and `computeLocalIntersection` of `OverlapInterpolationMatrix.cxx`, for 3D sources and 2D targets, transposes an empty matrix instead of the computed one.

### C90 Patches created from a criterion end, do not overlap, cover the marked cells and respect the limits

`createPatches` follows createPatchesFromCriterion: the minimal box of the marked cells, then rounds in which every patch is cut (dissection, hole, inflection, middle) or kept. The invariant of a patch is: a box of the grid, one value per cell which is true exactly at marked cells, the number of these, lengths of at least the smallest one, and tightness (an axis longer than the smallest length has a marked cell in its first and last layer, from the minimality of C43). Every cut leaves the smallest length on both sides, so by tightness both sides have marked cells. Disjointness and covering are carried by the number of patches which hold a position. The sum of (2 cells - 1) over the patches falls by one per patch and round, which gives the end after at most 2 cells rounds.

### C91 Cell fields are carried between a coarse grid and a refined part without loss or displacement

The loops are written as the lists of the pointer moves and accesses they make (`condenseCmds`, `condenseGhostCmds`, `spreadCmds`, `spreadGhostCmds`), run by `condenseRun` and `spreadRun` with checked accesses. The trace of a list is the sequence of its accesses with absolute positions; it is proved equal to one access per fine cell, in the order of the cells, at the position of the cell in the fine array and of its coarse cell in the coarse array (`lin`, `fineCell`, `srcAx` are plain index arithmetic). From there the value of a coarse cell is the fold of its own accesses: the first copies, the others add.

### C92 The entities of a group are those of its families, at every level

`FamMesh` holds the levels (size and optional array of family numbers), the families and the groups. `getGroupsArr` goes through getFamiliesOnGroups, getFamiliesIds and findIdsEqualList as the code does. `GrpHas m g x` (some family of the group has the number x) is the only notion of the statements.

### C93 Adding a group gives it the entities asked and leaves the others as they were

`addStep` is one turn of the loop over the family numbers met in the ids; it appends to the list of assignments made at the end. The invariant `AddInv` gives for every number x already treated the number `gid x` its entities of the group receive and `rid x` the others receive, with: new numbers all different and above the former ones, a group has gid x and rid x when it had x, untouched numbers are in the same groups. The final array is a function of the former value and of the membership in the ids, so the theorem follows entity by entity.

### C94 Cleaning, merging and renaming families and groups never changes the entities of the groups

`Verif/FamEdit.lean` writes the methods on the tables of C92. `relabel R` is the change of the ids of all arrays by a function; `same_group` says that a group keeps its entities when the ids are changed by R and the new group has R x exactly when the former one had x. Every theorem gives R: the identity for the table edits, 0 for the unused ids in rearrangeFamilies, the id of the first family with the same groups in zipFamilies (`zipId`, the substitutions made one after the other are proved to be this function).

### C95 Groups set all at once at a level, families kept on given levels and normalised family ids leave the other groups as they were

`Verif/FamSet.lean` writes the methods on the tables of C92. `same_group_at` is the level by level form of `same_group`: the ids of one level are changed by R. `C95_set_groups` rests on C21 (makePartition) and on the ids beyond the largest absolute value; `familyName_inj` gives that the names of new families differ. `Kept` (FamKeep.lean) is the invariant of the loops of keepFamIdsOnlyOnLevs, `Normed` (FamNorm.lean) that of the normalisations, with the numbering N rel x of the values of the levels done.

### C96 Gauss points are placed by shape functions of the reference cell which are exact for affine cells, with their true derivatives

The bodies of the ...Init functions are data: expressions `PExp` of the coordinates, generated from the source text (`GaussTab*.lean`). `PExp.toRF` normalises an expression to a polynomial over a power of (1 - z), with rational coefficients; `toRF_sound` proves it. So an identity of expressions is decided by the kernel on the normal forms and holds at all points of any ordered field (this is a proof by reflection, not a sampling). `PExp.devOK_sound` gives HasDerivAt in the same way. The checks (`GaussChkA..C`) are: sum is 1, combination of the reference nodes is the point, value at a node is 0 or 1, derivatives. `GaussInfo.lean` is the code around: recognition within 1e-3, rows of values, combination with the nodes. Trusted: the reading of the bodies as expressions. Besides the script which generated the tables, a second script, which reads the source and the tables separately, compared all 338 functions, 926 derivatives and 338 nodes at four random rational points each, without difference; the constants of the apex of the pyramids were not in this comparison.

### C97 Reference cells: inside test, barycenter, default nodes, bringing a point back, and conversion to linear cells

`InHull` is the textbook convex hull (non-negative weights of sum 1). `hull_of_inside` rebuilds the weights from the inequalities, for each shape; the other direction is that linear inequalities true at the nodes are true in the hull. `sqDistG` is the squared distance, the closest point is stated against every point of the hull. The straight-sided theorem uses a check by normal forms, as for C96: the combination of the quadratic functions with the values of the linear functions at the quadratic nodes is the linear function.

### C98 Measure of cells: lengths, areas and volumes

The formulas of prisms and hexahedra are copied from the source by a script, with the same intermediate variables; `volPenta_eq` and `volHexa_eq` write them as sums of volumes of tetrahedra (ring). Areas and volumes of polygons and polyhedra are sums over `cycPairs`, the oriented edges; closed surfaces are those whose oriented edges are, as a multiset, their own opposites. The theorems are stated on `cellMeasure`, the model of the choice on the type, with the errors of both sides.

### C99 Cells cut in simplices, or turned into polygons and polyhedra

The four functions of simplexize have one skeleton, `UMesh.cutCells`, with the type, the tables and the sizes of the allocations as parameters; a wrong size is undefined behaviour. The result of convertToPolyTypes is the mesh with a flag for the exception, so that the state after an exception is visible. Measures are those of C98.

### C100 Remapping between two Cartesian grids: the matrix holds the common volumes and the field is conserved

A grid is the list of the coordinates of its axes. Along an axis, `ccFirst` and `ccNext` are the two loops of the code with their indices; the theorem on one axis says which pairs are listed (`AxisFound`). The matrix is shown to be the insertion of a list of elements, one for each choice of an interference per axis. Positions of cells come from their numbers by divisions (`gridPos`), volumes are products of differences of coordinates, independently of the loops.

### C101 Locating points in a mesh finds the cells which contain them

Model: PtLocate.lean, on top of the boxes of the cells (C80) and of the search tree (C77). Numbers in an ordered field, the square root is a parameter with its characteristic property. The hull of the nodes is stated with non-negative coefficients of sum 1 (InNodes), independently of the tests. The C++ divisions by zero give NaN, every comparison is false and the sign is 0; the field division by zero gives the same sign.

### C102 computeCellCenterOfMass gives the centers of mass of the cells

Model: `Bary.lean` (edge sums of `computePolygonBarycenter2D/3D`, `integrationOverA3DLine`, the loop on the faces of `barycenterOfPolyhedron` with its `continue`, the dispatch of `computeBarycenter`, the loops of the meshes). The reference (`solidVol`, `solidMom`, `planeArea`, `planeMom`, `spaceArea`, `spaceMom`, in `BaryMain.lean` and `BarySurf.lean`) cuts the cell in simplices seen from an arbitrary point and does not use the edge sums; `HasCenter3/2/S` ask for the identity from every point. `BaryGeo.lean` and `BaryThm.lean` hold the flux identities (Gauss formula face by face: the third coordinate integrated over the projection of each face). Hypotheses on the regularity of the faces (plane, area above the threshold, not nearly horizontal for the threshold 1e-12) are stated on the coordinates; the findings show what happens without them. Trusted: arithmetic of the reals for doubles, the centers of the arcs of circle.

### C103 Merging nodes joins nodes within the precision and no others

Model: `MergeNodes.lean`, on top of the search tree (C77), the renumbering of arrays (C06), of connectivities (C55) and `ConvertIndexArrayToO2N` (C33). `MergeNodesThm.lean` proves the loop which finds the groups for any search which is reflexive and symmetric (`FoundGroups`), and a specification of `ConvertIndexArrayToO2N` for groups which overlap (C33 has disjoint groups): an element which is in no tail gets its rank among such elements, and another one the rank of the last head of a group which holds it. `IsMerge` states the numbering without the groups. `MergeNodesProps.lean`, `MergeCenter.lean` and `MergeSep.lean` apply this to the methods. The counts of `renumberNodesCenter` are kept in the field.

### C104 Skyline arrays: operations on packs act as on lists of lists

Model: `SkyLine.lean`; moves in an array (`moveIn`) are memmove with bounds checked, memory added by `reAlloc` has arbitrary values (`junk`). Specification: `SkyL.Packs` and `SkyL.Supers` say that values, index and super index are those of a list of packs or of super packs. `SkyLineThm.lean` has the algebra of offsets (`skyIdx_mid`, `addRange_sky`) and of moves (`moveIn_down`, `moveIn_up`), `SkyLineProps.lean` the operations on one pack, `SkyLineMany.lean` those on several, `SkyLinePoly.lean` histories and polyhedra; the connectivity of a polyhedron is written with `List.intercalate`. The index is taken as not empty.

### C105 Degenerated cells, polygons and polyhedra are turned into the usual cells they are

Model: `Degen.lean`; faces are lists of lists instead of one array with -1, the search functions are written for nodes of any type. Specification: the sides of a cell of dimension 2 are `edgesOf` (C47), the faces of a solid are the sons of the table of types (`sonsOf`), compared as lists of `Cycle` up to permutation (`SameFaces`). Proof: the search functions commute with injections of the nodes (`DegenEquiv.lean`), so it is enough to look at the positions of the nodes; there all pairs of opposite faces, all side faces and all rotations are checked by evaluation in the kernel (`DegenTab.lean`), which covers all cases since a face is known up to a rotation; the order of the faces is treated in general (`DegenPoly.lean`). The loops on the cells in place are in `DegenThm.lean`, under the hypothesis that no cell becomes longer, which is proved for cells of dimension 2 and for `unPolyze`, and false for degenerated solids (finding).

### C106 The time definition of a field over time gives the fields, meshes and arrays at each time

Model: `DefTime.lean`, times in a linear ordered field, the three classes of slices as one type with three cases, `_eps` as an option (none: uninitialised, reading it is undefined), pointers as numbers. Specification: `Touches` (the widened interval contains the time), `TimeAnswers` (what a slice answers), `RefOf` (place of a pointer), `TField.Good`. Proof: the loop on the slices is a filter (`DefTimeThm.lean`); three slices which touch the same time contradict the separation of slices which are not neighbours, itself a consequence of the order and of durations of four tolerances; the hot spots are treated by induction on the slices from the end (`DefTimeOrd.lean`).

### C107 Units of measure are interpreted as the arithmetic of their text, and conversions keep the quantity

Model: `UnitConv.lean`, on the parser of C83 (`parseExpr`): the tables, `getInfoForUnit` as a scan of the ends of the name, the operations of `DecompositionInUnitBase`, `evaluateLowLev` with one stack per node, `convert`. Specification: `Cst.unit` (meaning of a written expression), `Cst.amount` (the arithmetic value of the expression when each base unit has an arbitrary non zero amount), `SameDim`. Proof: a node evaluated above any stack leaves its value on it (`rawU_eq`, by induction on the expression); names by the whole table of prefixes and units (`unit_prefixed`, the table being finite) and by the invariant of the scan; conversions by field arithmetic.

### C108 Dense matrices follow the rules of matrix algebra

Model: `DenseMat.lean`, on `toNoInterlace` of C23. Specification: `IsMat m A`, the object holds the matrix `A` of Mathlib, one object for each matrix (`C108_unique`). Proof: the two outer loops of `matrixProduct` write a grid in order (`emit_grid`), the inner one is a sum over `Fin`; the laws follow from those of Mathlib through `C108_unique`.

### C109 The inverse of a matrix is its inverse, and is found exactly when there is one

Model: `MatInv.lean`; cells are addressed by row and column, loops on independent columns are done at once, a division by 0 is left out (`undef`). Specification: `IsMat` of C108 and the determinant and product of Mathlib. Proof: `Elim` keeps the sequence of whole matrices that the elimination goes through, of which the array holds the upper part and the multipliers; `UpInv` is the inversion in place of the triangle; `dgediLow_step` shows that one turn on columns undoes one turn on rows; a zero on the diagonal gives a vector sent to 0 by the matrix (`elim_kernel`).

### C110 Kriging goes through the values of the nodes and reproduces linear fields

Model: `Kriging.lean`, on `inverseMatrix` of C109, `matrixProduct` of C108 and `toNoInterlace` of C23; `sqrt` and `log` are any functions. Specification: the values of the arrays; matrices of Mathlib for the matrix of kriging. Proof: `krDrift_sys` reads the cells of the bordered matrix, `krValues_core` writes the answer as a product of matrices; the row at a node is the row of the matrix, and a linear field is the matrix applied to the coefficients of the drift, because the lower right block is 0.

### C111 The equation of the plane of a face holds at its points, and exists unless the face is parallel to (1, 1, 1)

Model: `PlaneEq.lean`, on `inverseMatrix` of C109. Specification: `NodeAt`, `NormalOf`, `SpreadPoints`, `MeanPoint` and `OnPlane`, written on coordinates without the functions of the model. Proof: the answer is the last column of the inverse, so that the rows of the matrix give the equations; the determinant of the matrix is the opposite of the sum of the coordinates of the normal (`plMat_det`).
