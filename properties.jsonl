{"id": "C01", "title": "Slice length is the length of the arithmetic progression", "statement": "GetNumberOfItemGivenBESRelative(begin,end,step) returns exactly the number of terms of begin, begin+step, ... strictly before end (in the direction of step); it throws exactly when step is 0 or end lies strictly on the wrong side of begin. GetNumberOfItemGivenBES agrees with it on increasing slices, returns 0 on an empty slice (begin==end) whatever the step, and throws exactly when end<begin or when begin<end with step<=0. GetPosOfItemGivenBESRelativeNoThrow(v,...) returns the unique k with v=begin+k*step among the terms, and -1 exactly when v is not a term.", "quantifier": "all integers begin, end, step, v", "why_tests_cant": "boundary cases (step not dividing the span, negative steps) form an infinite family; a sample cannot exclude an off-by-one for some congruence class", "anchors": ["MEDCoupling/MEDCouplingMemArray.txx: DataArrayTools<T>::GetNumberOfItemGivenBES, GetNumberOfItemGivenBESRelative, GetPosOfItemGivenBESRelativeNoThrow"]}
{"id": "C02", "title": "Splitting a slice in n parts is an exact ordered partition", "statement": "For every slice [start,stop) by step and every number of parts n>=1, the sub-slices returned by GetSlice for ids 0..n-1, enumerated and concatenated in order, give exactly the items of the slice, each once and in order; an id outside [0,n) or n<=0 throws. splitInBalancedSlices(n) on an array of non negative weights gives n consecutive intervals covering exactly [0,nbTuples), each one but the last being the shortest whose weight reaches total/n (integer division) while enough tuples remain; it throws exactly when n is not in [1,nbTuples].", "quantifier": "all slices (any non-zero step), all numbers of parts, all part ids", "why_tests_cant": "parallel splitting relies on no element being lost or duplicated for every size/part-count combination, an unbounded two-parameter family", "anchors": ["MEDCoupling/MEDCouplingMemArray.txx: DataArrayTools<T>::GetSlice, DataArrayDiscrete<T>::splitInBalancedSlices"]}
{"id": "C03", "title": "The dynamic buffer behaves as a list under every history of operations", "statement": "For every history of alloc, reserve, pushBackSilent, popBackSilent, pack and re-allocation on an array, the observable content (number of elements and each element) is that of the ideal list subjected to the same operations; the capacity never falls below the number of elements; reserve and pack never change content; popBack on empty throws; no access outside the allocated buffer happens. insertAtTheEnd appends exactly the given range.", "quantifier": "all finite histories of operations, all element values", "why_tests_cant": "depends on the interleaving of growth and shrink operations; unit tests run a handful of histories", "anchors": ["MEDCoupling/MEDCouplingMemArray.txx: MemArray<T>::pushBack, popBack, pack, reserve, reAlloc, alloc, insertAtTheEnd, writeOnPlace"]}
{"id": "C04", "title": "renumberInPlace is an atomic checked renumbering", "statement": "renumberInPlace(old2New) never accesses memory out of bounds whatever the integers in old2New. If it returns, tuple old2New[i] after equals tuple i before for each i when old2New is injective; if some id is out of range it throws and leaves the array content unchanged. renumberInPlaceR(new2Old): tuple i after is tuple new2Old[i] before, throwing with content unchanged if an id is out of range. The two are inverse of one another on permutations.", "quantifier": "all array contents, numbers of components, and all integer arrays old2New of matching length (valid or not)", "why_tests_cant": "requires no memory corruption for every ill-formed index array and equality for all n! permutations", "anchors": ["MEDCoupling/MEDCouplingMemArray.txx: DataArrayTemplate<T>::renumberInPlace, renumberInPlaceR"]}
{"id": "C05", "title": "renumber and renumberR are mutually inverse gathers/scatters", "statement": "For every permutation o2n: renumber(o2n) has tuple i of this at position o2n[i]; renumberR(n2o) has at position i tuple n2o[i] of this; renumberR(p) after renumber(p) is the identity, renumber(p) = renumberR(inverse p).", "quantifier": "all arrays, component counts and permutations of any length", "why_tests_cant": "universally quantified over all permutations", "anchors": ["MEDCoupling/MEDCouplingMemArray.txx: DataArrayTemplate<T>::renumber, renumberR"]}
{"id": "C06", "title": "renumberAndReduce drops exactly the negatively numbered tuples", "statement": "With old2New whose non negative entries are injective and lie in [0,newNb): the result has newNb tuples; tuple old2New[i] is tuple i of this for each i with old2New[i]>=0; every other result tuple is left unwritten (so the result is completely defined exactly when the non-negative entries are onto).", "quantifier": "all arrays, all old2New arrays, all newNb", "why_tests_cant": "universal over partial injections; uninitialised memory is invisible to a passing unit test", "anchors": ["MEDCoupling/MEDCouplingMemArray.txx: DataArrayTemplate<T>::renumberAndReduce"]}
{"id": "C07", "title": "Inverse permutation construction", "statement": "invertArrayO2N2N2O(newNb) on a bijection returns its inverse; ids equal to -1 are skipped; any other id outside [0,newNb) makes it throw, and it never writes out of bounds; on repeated ids the last occurrence wins (the first one for invertArrayO2N2N2OBis). invertArrayN2O2O2N(oldNb): result[this[i]]=i for distinct ids, -1 elsewhere, throwing exactly when an id is out of range. Inverting twice is the identity on permutations.", "quantifier": "all integer arrays, all target sizes", "why_tests_cant": "universal over arrays including invalid ones", "anchors": ["MEDCoupling/MEDCouplingMemArray.txx: DataArrayDiscrete<T>::invertArrayO2N2N2O, invertArrayN2O2O2N, invertArrayO2N2N2OBis"]}
{"id": "C08", "title": "Checked tuple selection is safe and exact", "statement": "selectByTupleIdSafe(ids) throws exactly when some id is outside [0,nbTuples), never reads out of bounds, and otherwise returns the array whose k-th tuple is tuple ids[k]. selectByTupleId does the same on valid ids.", "quantifier": "all arrays, component counts and index lists with repetitions, in any order", "why_tests_cant": "memory safety for all ill-formed inputs", "anchors": ["MEDCoupling/MEDCouplingMemArray.txx: DataArrayTemplate<T>::mySelectByTupleIdSafe, mySelectByTupleId"]}
{"id": "C09", "title": "checkAndPreparePermutation yields the sorting rank permutation", "statement": "CheckAndPreparePermutation returns, for pairwise distinct values, the permutation p with p[i] = rank of value i, so applying it as old-to-new sorts the array; it throws exactly when two values are equal. FindPermutationFromFirstToSecond(a,b) returns a permutation o2n such that b[o2n[i]]=a[i], throwing exactly when b is not a reordering of a or when values are repeated. FindPermutationFromFirstToSecondDuplicate does the same with repeated values allowed, preserving the order among equal values, and throws exactly when b is not a reordering of a.", "quantifier": "all integer arrays of any length", "why_tests_cant": "universal over arrays; relies on sorting invariants", "anchors": ["MEDCoupling/MEDCouplingMemArray.txx: DataArrayDiscrete<T>::CheckAndPreparePermutation, FindPermutationFromFirstToSecond, checkAndPreparePermutation"]}
{"id": "C10", "title": "Per level numbering is a stable counting sort", "statement": "buildPermArrPerLevel, on any array of integers (negative ones included), returns the old-to-new permutation which sorts the elements by level and preserves the original order inside each level.", "quantifier": "all integer arrays", "why_tests_cant": "stability and bijectivity must hold for every distribution of levels", "anchors": ["MEDCoupling/MEDCouplingMemArray.txx: DataArrayDiscrete<T>::buildPermArrPerLevel"]}
{"id": "C11", "title": "changeSurjectiveFormat builds exactly the preimages", "statement": "changeSurjectiveFormat(targetNb) returns an indexed pair (arr,arrI) with targetNb groups such that group j lists in increasing order exactly the positions i with this[i]=j; it throws exactly when some value is outside [0,targetNb).", "quantifier": "all integer arrays and target sizes", "why_tests_cant": "every position must appear once, for all inputs", "anchors": ["MEDCoupling/MEDCouplingMemArray.txx: DataArrayDiscrete<T>::changeSurjectiveFormat"]}
{"id": "C12", "title": "Union, intersection of id arrays are the set operations", "statement": "BuildUnion(arrs) returns the strictly increasing list of all values in at least one array; BuildIntersection(arrs) of two or more arrays returns the strictly increasing list of values in every array.", "quantifier": "all lists of integer arrays (with repetitions and in any order)", "why_tests_cant": "set equality for all inputs", "anchors": ["MEDCoupling/MEDCouplingMemArray.txx: DataArrayDiscrete<T>::BuildUnion, BuildIntersection"]}
{"id": "C13", "title": "Complement and substraction are exact", "statement": "buildComplement(n) on ids within [0,n) returns the increasing list of the ids of [0,n) not present, throwing exactly if an id is out of range. buildSubstraction(other) returns the increasing list of values of this not in other. buildSubstractionOptimized(other), when both are strictly increasing and other is a part of this, equals the filter of this by absence in other.", "quantifier": "all integer arrays; for the optimised version all strictly increasing pairs with other included in this", "why_tests_cant": "two-pointer loops can skip or overrun for particular interleavings", "anchors": ["MEDCoupling/MEDCouplingMemArray.txx: DataArrayDiscrete<T>::buildComplement, buildSubstraction, buildSubstractionOptimized"]}
{"id": "C14", "title": "Duplicate removal", "statement": "buildUnique on an array whose equal values are consecutive, and buildUniqueNotSorted on any non empty array whose value span fits in the value type, return each value once, keeping the order of first occurrences; getDifferentValues returns the strictly increasing list of the values present; hasUniqueValues answers whether all values are distinct.", "quantifier": "all integer arrays", "why_tests_cant": "universal over arrays", "anchors": ["MEDCoupling/MEDCouplingMemArray.txx: DataArrayDiscrete<T>::buildUnique, buildUniqueNotSorted, getDifferentValues, hasUniqueValues"]}
{"id": "C15", "title": "Offsets and deltas are inverse", "statement": "computeOffsetsFull produces n+1 values starting at 0 whose consecutive differences are the input; deltaShiftIndex of it is the input; on any index array a, computeOffsetsFull(deltaShiftIndex(a)) is a shifted to start at 0. computeOffsets is computeOffsetsFull without its last value.", "quantifier": "all integer arrays", "why_tests_cant": "algebraic law over all arrays", "anchors": ["MEDCoupling/MEDCouplingMemArray.txx: DataArrayDiscrete<T>::computeOffsets, computeOffsetsFull, deltaShiftIndex"]}
{"id": "C16", "title": "Explicit expansion of ranges", "statement": "buildExplicitArrByRanges(offsets) with this=(i1..ik) returns the concatenation of [offsets[i],offsets[i+1]) in order; it throws exactly when an index is out of range or the offsets decrease at a selected interval, and never accesses out of bounds. buildExplicitArrOfSliceOnScaledArr(b,e,s) returns the concatenation, for each interval i of this, of the i-th term of the slice repeated as many times as the interval is long; it throws exactly when the slice is invalid, has too many terms for this or an interval is decreasing.", "quantifier": "all id arrays and all offset arrays", "why_tests_cant": "memory safety on all inputs and equality on all valid ones", "anchors": ["MEDCoupling/MEDCouplingMemArray.txx: DataArrayDiscrete<T>::buildExplicitArrByRanges, buildExplicitArrOfSliceOnScaledArr"]}
{"id": "C17", "title": "Range lookup decomposes ids", "statement": "With ranges given as (begin,end) pairs, findRangeIdForEachTuple gives for each value v the first r with begin_r<=v<end_r, findIdInRangeForEachTuple gives v-begin_r; they throw exactly when a value lies in no interval; begin_r+k rebuilds v.", "quantifier": "all value arrays and all arrays of pairs, sorted or not, overlapping or not", "why_tests_cant": "universal over values and ranges including empty intervals", "anchors": ["MEDCoupling/MEDCouplingMemArray.txx: DataArrayDiscrete<T>::findRangeIdForEachTuple, findIdInRangeForEachTuple"]}
{"id": "C18", "title": "Extraction from indexed arrays", "statement": "ExtractFromIndexedArrays(ids,arr,arrI) returns an indexed pair whose k-th group is exactly group ids[k] of the input, well-formed, and throws exactly when an id is out of range; no out of bounds access on well-formed input. The slice variant returns the same as the explicit ids.", "quantifier": "all indexed arrays with monotonic index and all id lists (valid or not)", "why_tests_cant": "mesh restriction relies on it for every selection", "anchors": ["MEDCoupling/MEDCouplingMemArray.txx: DataArrayDiscrete<T>::ExtractFromIndexedArrays, ExtractFromIndexedArraysSlice"]}
{"id": "C19", "title": "Replacement inside indexed arrays", "statement": "SetPartOfIndexedArrays(ids,in,inI,src,srcI) with distinct ids and at least as many source groups as ids returns the indexed pair whose group ids[k] is group k of src and whose other groups are unchanged; it throws exactly when an id is out of range. The SameIdx variant does it in place (the last one wins on repeated ids), throwing exactly when an id is out of range or a size differs.", "quantifier": "all well-formed indexed arrays and sources, all id lists (for the first: distinct ids)", "why_tests_cant": "covers all sizes combinations including empty groups", "anchors": ["MEDCoupling/MEDCouplingMemArray.txx: DataArrayDiscrete<T>::SetPartOfIndexedArrays, SetPartOfIndexedArraysSameIdx"]}
{"id": "C20", "title": "Removal of ids from indexed arrays", "statement": "RemoveIdsFromIndexedArrays removes from each group exactly the elements (at rank >= offset) whose value is in the given set, keeps the others in order, keeps the number of groups, leaves a well-formed index, and returns true iff something changed.", "quantifier": "all indexed arrays, sets of ids and offsets", "why_tests_cant": "an in-place compaction whose read and write cursors must never cross, for all inputs", "anchors": ["MEDCoupling/MEDCouplingMemArray.txx: DataArrayDiscrete<T>::RemoveIdsFromIndexedArrays"]}
{"id": "C21", "title": "MakePartition computes the coarsest common refinement", "statement": "MakePartition(groups,newNb) gives each element a family id such that two elements get the same id iff they belong to exactly the same groups; each group is the union of the families returned for it (sorted, without repetition); the ids are 1..m; it throws exactly when an element is out of [0,newNb).", "quantifier": "all families of groups of ids in [0,newNb)", "why_tests_cant": "the correctness is about all families of overlapping sets (family/group encoding of meshes)", "anchors": ["MEDCoupling/MEDCouplingMemArray.txx: DataArrayDiscrete<T>::MakePartition"]}
{"id": "C22", "title": "Partition by value", "statement": "partitionByDifferentValues returns for each distinct value the increasing list of its positions; these lists partition [0,n). occurenceRankInThis gives each position the count of earlier equal values. indexOfSameConsecutiveValueGroups returns the boundaries of maximal constant runs.", "quantifier": "all integer arrays", "why_tests_cant": "universal over arrays", "anchors": ["MEDCoupling/MEDCouplingMemArray.txx: DataArrayDiscrete<T>::partitionByDifferentValues, occurenceRankInThis, indexOfSameConsecutiveValueGroups"]}
{"id": "C23", "title": "Interlacing conversions are mutually inverse", "statement": "toNoInterlace maps component c of tuple t to position c*nbTuples+t; fromNoInterlace is its inverse; rearrange and transpose keep the flat content, keepSelectedComponents picks exactly the requested components and throws on a bad id.", "quantifier": "all arrays, tuple and component counts", "why_tests_cant": "index arithmetic over unbounded two-dimensional shapes", "anchors": ["MEDCoupling/MEDCouplingMemArray.txx: MemArray<T>::fromNoInterlace, toNoInterlace; DataArrayTemplate<T>::rearrange, transpose, myKeepSelectedComponents, changeNbOfComponents"]}
{"id": "C24", "title": "Sub-part lookup", "statement": "indicesOfSubPart(part) returns positions p with this[p[k]]=part[k], throwing exactly when this has duplicates or a value is missing. findIdForEach does so for each value of an array (a position of the value; throws exactly if a value is missing). buildPermutationArr(other) with same length returns ids r with other[r[i]]=this[i] or throws.", "quantifier": "all pairs of integer arrays", "why_tests_cant": "universal over arrays", "anchors": ["MEDCoupling/MEDCouplingMemArray.txx: DataArrayDiscrete<T>::indicesOfSubPart, findIdForEach, buildPermutationArr"]}
{"id": "C25", "title": "Linking of pairs into chains", "statement": "splitPairsIntoChains cuts the pairs of the array into non-empty chains (each pair starts where the previous one ends) using every pair exactly once up to orientation, no two chains having a common extremity. sortToHaveConsecutivePairs returns that chain when there is only one and throws otherwise; it always succeeds on a connected set of pairs where each node is used at most twice. sortEachPairToMakeALinkedList, for at least two pairs, succeeds exactly when the pairs can be oriented in the given order into a walk without degenerate pair nor immediate return, and returns that orientation. fromLinkedListOfPairToList succeeds exactly on non-empty chains and lists their nodes.", "quantifier": "all lists of pairs", "why_tests_cant": "reordering/flip logic must never lose or duplicate a segment for any input", "anchors": ["MEDCoupling/MEDCouplingMemArray.txx: DataArrayDiscrete<T>::sortEachPairToMakeALinkedList, sortToHaveConsecutivePairs, splitPairsIntoChains, fromLinkedListOfPairToList"]}
{"id": "C26", "title": "Reference counting destroys exactly once, never early", "statement": "Through smart pointers (copy, assignment including self-assignment, takeRef, retn, nullify) an object is alive iff at least one owner exists; it is destroyed at the release of its last owner, never earlier and never twice, and everything an object owns is released with it. Threads that copy and release pointers they own keep this true in every interleaving. (The assignments p = p->child and taking the raw pointer already held are outside of the guarantee: the first one is undefined, the second one leaks; cycles leak.)", "quantifier": "all finite histories of smart pointer operations over any number of objects and pointers", "why_tests_cant": "depends on the history; double free and leaks appear only in particular interleavings", "anchors": ["MEDCoupling/MEDCouplingRefCountObject.cxx: RefCountObjectOnly::incrRef, decrRef", "MEDCoupling/MCAuto.hxx: MCAuto"]}
{"id": "C27", "title": "Memory accounting of an object graph counts each reachable object once", "statement": "getHeapMemorySize is the own size of the object plus that of each distinct object reachable by one or more steps, counted once, and GetHeapMemorySizeOfObjs counts each object reachable from the list once; both end on shared and cyclic graphs. getAllTheProgeny lists exactly the objects reachable by one or more steps and isObjectInTheProgeny decides that.", "quantifier": "all finite object graphs", "why_tests_cant": "graphs with sharing are an infinite family", "anchors": ["MEDCoupling/MEDCouplingRefCountObject.cxx: BigMemoryObject::getHeapMemorySize, getAllTheProgeny, GetHeapMemorySizeOfObjs"]}
{"id": "C28", "title": "Time labels never miss a modification", "statement": "A declared modification gives a label strictly greater than all labels handed out before. After updateTime the label of a container is at least that of its direct parts, and unchanged only if no direct part was modified since. A chain of updateTime calls from the inside out brings the label of the innermost part up to the outermost container. (A single updateTime on the outermost one may miss a modification of a part of a part.)", "quantifier": "all finite histories of modifications", "why_tests_cant": "ordering property over histories", "anchors": ["MEDCoupling/MEDCouplingTimeLabel.cxx: TimeLabel::declareAsNew, updateTimeWith, operator=, TimeLabelConstOverseer"]}
{"id": "C29", "title": "Part definitions compose as functions", "statement": "composeWith(other) denotes the composition of the selections; toDAI returns the list denoted; operator+ denotes the multiset union (sorted, or a slice when two slices follow each other); tryToSimplify does not change the denoted list; serialize/Unserialize of one definition round-trips. (getNumberOfElems and operator+ refuse decreasing slices, which tryToSimplify may create.)", "quantifier": "all slices and id arrays", "why_tests_cant": "algebraic law over all selections", "anchors": ["MEDCoupling/MEDCouplingPartDefinition.cxx: DataArrayPartDefinition, SlicePartDefinition"]}
{"id": "C30", "title": "Recognition of arithmetic progressions", "statement": "isRange answers true iff the array is an arithmetic progression describable by a slice and then (start,stop,step) regenerate it exactly; isIota(n) iff the array is 0..n-1; Range(b,e,s) lists the progression.", "quantifier": "all integer arrays", "why_tests_cant": "universal over arrays, incl. length 0, 1 and decreasing ones", "anchors": ["MEDCoupling/MEDCouplingMemArray.txx: DataArrayDiscrete<T>::isRange, isIota, Range"]}
{"id": "C31", "title": "Splitting values by ranges", "statement": "splitByValueRange(bounds) assigns each value v to the last interval j whose lower bound is <= v with all later bounds > v, gives its rank v-bounds[j] inside it and lists in increasing order exactly the intervals hit; it throws exactly when there are less than two bounds or a value belongs to no interval.", "quantifier": "all arrays, all interval bounds", "why_tests_cant": "universal over values", "anchors": ["MEDCoupling/MEDCouplingMemArray.txx: DataArrayDiscrete<T>::splitByValueRange"]}
{"id": "C32", "title": "Monotonicity tests", "statement": "isMonotonic/isStrictlyMonotonic(increasing) return true iff every pair of consecutive (hence of all ordered) values compares accordingly.", "quantifier": "all integer arrays", "why_tests_cant": "universal over arrays", "anchors": ["MEDCoupling/MEDCouplingMemArray.txx: DataArrayDiscrete<T>::isMonotonic, isStrictlyMonotonic"]}
{"id": "C33", "title": "Indexed groups to old-to-new numbering", "statement": "ConvertIndexArrayToO2N(nbOfOldTuples,groups): for disjoint non empty groups in range listed with their smallest element first, merges the tuples of each group to one new id: the result is a map onto [0,newNb) which identifies exactly the tuples of a common group and increases with the first element of each class.", "quantifier": "all partitions given by disjoint groups", "why_tests_cant": "node merging relies on it for every pattern of groups", "anchors": ["MEDCoupling/MEDCouplingMemArray.txx: DataArrayDiscrete<T>::ConvertIndexArrayToO2N"]}
{"id": "C34", "title": "Aggregation concatenates", "statement": "Aggregate(arrs) is the concatenation of the contents; AggregateIndexes(idxs) of index arrays is the well-formed index of the concatenation of the groups; PutIntoToSkylineFrmt produces the indexed representation whose groups are the given vectors.", "quantifier": "all lists of arrays", "why_tests_cant": "universal over lists of arrays", "anchors": ["MEDCoupling/MEDCouplingMemArray.txx: DataArrayDiscrete<T>::Aggregate, AggregateIndexes, PutIntoToSkylineFrmt"]}
{"id": "C35", "title": "Translation by an index table", "statement": "transformWithIndArr(table) replaces each value by table[value], throwing if a value is out of range; transformWithIndArrR is its inverse on permutations; changeValue replaces exactly the occurrences; BuildListOfSwitchedOn/Off list exactly the positions of true/false.", "quantifier": "all arrays and tables", "why_tests_cant": "universal over values incl. invalid ones", "anchors": ["MEDCoupling/MEDCouplingMemArray.txx: DataArrayDiscrete<T>::transformWithIndArr, transformWithIndArrR, changeValue, BuildListOfSwitchedOn, BuildListOfSwitchedOff"]}
{"id": "C36", "title": "Search for sequences and tuples", "statement": "findIdSequence returns the smallest position where the given sequence occurs contiguously, or -1 exactly when it does not; findIdsEqual/findIdsEqualTuple list exactly the matching positions; findIdFirstEqualTuple returns the first or -1.", "quantifier": "all arrays and patterns", "why_tests_cant": "absence must be proved for every position", "anchors": ["MEDCoupling/MEDCouplingMemArray.txx: DataArrayDiscrete<T>::findIdSequence, findIdsEqual, findIdsEqualTuple, findIdFirstEqualTuple"]}
{"id": "C37", "title": "Ranges found in a list of ids", "statement": "findIdsRangesInListOfIds(listOfIds), with this a list of offsets and listOfIds increasing, returns exactly the ranks of the intervals [this[i],this[i+1]) all of whose ids are present, and the positions in listOfIds of these ids.", "quantifier": "all offset arrays and strictly increasing id lists satisfying the documented conditions", "why_tests_cant": "a two cursor scan whose termination and bounds depend on the data", "anchors": ["MEDCoupling/MEDCouplingMemArray.txx: DataArrayDiscrete<T>::findIdsRangesInListOfIds"]}
{"id": "C38", "title": "Grouping of ids by pairs", "statement": "fromListOfPairsToIndexArray returns an indexed array of increasing non-empty groups of ids such that the two ends of each pair lie in a common group and any two members of a group are linked by the pairs. (The groups are however not always disjoint.)", "quantifier": "all lists of pairs", "why_tests_cant": "union of groups by a map-of-sets algorithm, depends on the whole pattern of pairs", "anchors": ["MEDCoupling/MEDCouplingMemArray.txx: DataArrayDiscrete<T>::fromListOfPairsToIndexArray"]}
{"id": "C39", "title": "Numbering of the cells and nodes of a structured grid", "statement": "On a structured grid with at least two nodes per axis and fewer than 2^31 cells, getCellIdFromPos is a bijection from the positions (one index per axis, in range) onto 0..getNumberOfCells()-1 and getLocationFromCellId is its inverse, refusing ids out of this range; the same for nodes with getNodeIdFromPos, getLocationFromNodeId and getNumberOfNodes. (With a single node on the first axis cell ids are not distinct, and beyond 2^31 cells they are wrong.)", "quantifier": "all grid sizes and number of axes, all positions and ids", "why_tests_cant": "a statement on every pair of positions of every grid; the 32 bit overflow needs a grid no test allocates", "anchors": ["MEDCoupling/MEDCouplingStructuredMesh.cxx: getCellIdFromPos, getNodeIdFromPos, getLocationFromCellId, getLocationFromNodeId, GetPosFromId, GetSplitVectFromStruct, getNumberOfCells, getNumberOfNodes"]}
{"id": "C40", "title": "Nodal connectivity of a structured grid", "statement": "getNodeIdsOfCell gives the 2^d corners of the cell, each once, in the order of the reference cell; Build1GTNodalConnectivity holds, cell by cell in the order of cell ids, the same nodes with the opposite orientation, and is not affected by axes with a single node.", "quantifier": "all grids with 1 to 3 axes and all their cells", "why_tests_cant": "index arithmetic for each cell and corner of any grid size", "anchors": ["MEDCoupling/MEDCouplingStructuredMesh.cxx: getNodeIdsOfCell, ZipNodeStructure, Build1GTNodalConnectivity, Build1GTNodalConnectivity1D/2D/3D"]}
{"id": "C41", "title": "Boxes of cells of a structured grid", "statement": "BuildExplicitIdsFrom gives the increasing list of exactly the ids of the cells of a box and refuses boxes out of the grid; SwitchOnIdsFrom turns on exactly these cells, ExtractFieldOfBoolFrom and ExtractFieldOfDoubleFrom read exactly these tuples in this order, MultiplyPartOf changes exactly these tuples, each once; IsPartStructured answers true exactly for the lists of ids of some box, and returns this box. (SwitchOnIdsFrom and the Extract methods do not check the box against the grid.)", "quantifier": "all structures of 1 to 3 axes, all boxes, all lists of non negative ids, all fields", "why_tests_cant": "the recognition of boxes ranges over all lists of ids", "anchors": ["MEDCoupling/MEDCouplingStructuredMesh.cxx: BuildExplicitIdsFrom, SwitchOnIdsFrom, ExtractFieldOfBoolFrom, ExtractFieldOfDoubleFrom, MultiplyPartOf, IsPartStructured"]}
{"id": "C42", "title": "Algebra of boxes in compact format", "statement": "IntersectRanges describes exactly the common positions and throws only if there is none; AreRangesIntersect says whether there is one (for boxes with at least one element per axis); ChangeReferenceFromGlobalOfCompactFrmt with check refuses exactly the parts out of the big box and describes the same positions relative to it, ChangeReferenceToGlobalOfCompactFrmt brings them back; TranslateCompactFrmt moves exactly the positions and FindTranslationFrom finds the vector; PutInGhostFormat shifts the part by the ghost width in the enlarged structure.", "quantifier": "all dimensions and all boxes, including negative bounds", "why_tests_cant": "set equality on unbounded sets of positions", "anchors": ["MEDCoupling/MEDCouplingStructuredMesh.cxx: IntersectRanges, AreRangesIntersect, ChangeReferenceFromGlobalOfCompactFrmt, ChangeReferenceToGlobalOfCompactFrmt, TranslateCompactFrmt, FindTranslationFrom, PutInGhostFormat, ApplyGhostOnCompactFrmt"]}
{"id": "C43", "title": "Smallest box around the marked cells of a structured grid", "statement": "FindMinimalPartOf(minPatchLgth, st, crit) returns the number of marked cells and a box inside the grid, at least minPatchLgth long on each axis, holding all marked cells and on no axis longer than any other box with these properties; reducedCrit holds the marks of the cells of the box in order. Calls with inconsistent sizes, or with an axis shorter than minPatchLgth, are refused.", "quantifier": "all structures of 1 to 3 axes, all marks, all minimal lengths", "why_tests_cant": "minimality quantifies over all boxes; the enlargement and its clamping interact with the borders", "anchors": ["MEDCoupling/MEDCouplingStructuredMesh.cxx: FindMinimalPartOf, FindMinimalPartOf1D, FindMinimalPartOf2D, FindMinimalPartOf3D"]}
{"id": "C44", "title": "Reverse nodal connectivity of a structured grid", "statement": "getReverseNodalConnectivity returns an indexed array with one group per node, the group of a node being the increasing list of exactly the cells having this node as a corner; the arrays are filled entirely, and axes with a single node do not count.", "quantifier": "all grids of 1 to 3 axes with at least one node per axis", "why_tests_cant": "the borders, edges and corners of the grid are separate cases of separate loops, for all sizes", "anchors": ["MEDCoupling/MEDCouplingStructuredMesh.cxx: getReverseNodalConnectivity, GetReverseNodalConnectivity1, GetReverseNodalConnectivity2, GetReverseNodalConnectivity3"]}
{"id": "C45", "title": "Mesh of the faces of a structured grid", "statement": "Build1GTNodalConnectivityOfSubLevelMesh lists each face of the grid (edges in 2D) exactly once, by its corners in cyclic order, fills the array entirely, and the number of tuples is GetNumberOfCellsOfSubLevelMesh of the cell structure.", "quantifier": "all 2D and 3D grids with at least one node per axis", "why_tests_cant": "a bijection with the faces of any grid size", "anchors": ["MEDCoupling/MEDCouplingStructuredMesh.cxx: Build1GTNodalConnectivityOfSubLevelMesh, Build1GTNodalConnectivityOfSubLevelMesh2D/3D, GetNumberOfCellsOfSubLevelMesh"]}
{"id": "C46", "title": "Signatures of the marks per axis", "statement": "ComputeSignaturePerAxisOf gives, per axis, one value per index: the number of marked cells with this index on this axis.", "quantifier": "all structures of 1 to 3 axes, all marks", "why_tests_cant": "counting in slabs of any grid", "anchors": ["MEDCoupling/MEDCouplingStructuredMesh.cxx: ComputeSignaturePerAxisOf"]}
{"id": "C47", "title": "Reference cells: the sons of a cell are its edges or a closed oriented surface", "statement": "For every static 3D geometric type the faces given by the cell model form a closed surface, consistently oriented: each oriented edge (with its middle node for quadratic types) appears in exactly one face and its opposite in exactly one other. The edges announced by the model are exactly the edges of the faces, each once. The sons of a 2D cell are its edges in cyclic order, with their middle nodes; the sons of a polyhedron are the groups of nodes between the separators.", "quantifier": "all geometric types and all connectivities of the right length (any length for polygons and polyhedra)", "why_tests_cant": "a wrong entry of one table shows only with one type, one face and one orientation; polygons and polyhedra have any number of nodes", "anchors": ["INTERP_KERNEL/CellModel.cxx: CellModel::CellModel, getNumberOfSons2, getSonType2, fillSonCellNodalConnectivity2, fillSonEdgesNodalConnectivity3D, getNumberOfEdges"]}
{"id": "C48", "title": "Inverting the orientation of a cell", "statement": "Inverting a 2D cell reverses each of its oriented edges (middle nodes follow their edge) and keeps its first node; inverting a 3D cell reverses every face of its surface; inverting twice gives back the cell; a connectivity whose length does not fit its type is refused.", "quantifier": "all supported types, all connectivities", "why_tests_cant": "per type permutation tables, polygons of any size", "anchors": ["INTERP_KERNEL/OrientationInverter.cxx: OrientationInverter::BuildInstanceFrom, operate", "INTERP_KERNEL/CellModel.cxx: changeOrientationOf2D, changeOrientationOf1D"]}
{"id": "C49", "title": "Comparing the orientation of two cells on the same nodes", "statement": "For linear 2D cells the orientation status is true exactly when the second connectivity is a rotation of the first, false exactly when it is a rotation of the reversed first and not of the first, and an exception is thrown otherwise; for segments it tells whether the ends are exchanged.", "quantifier": "all connectivities of equal lengths", "why_tests_cant": "all rotations of polygons of any size", "anchors": ["INTERP_KERNEL/CellModel.cxx: getOrientationStatus"]}
{"id": "C50", "title": "Extrusion of a reference cell", "statement": "Extruding a static 2D cell gives a 3D cell whose first face is the 2D cell itself, whose second face is the translated 2D cell with opposite orientation, and which has one more face per edge of the 2D cell.", "quantifier": "all static 2D types but TRI7, all connectivities, all offsets", "why_tests_cant": "tables per type, any node numbers and offset", "anchors": ["INTERP_KERNEL/CellModel.cxx: buildExtruded, getExtrudedType"]}
{"id": "C51", "title": "Unstructured mesh: every history of construction calls gives the list of accepted cells", "statement": "After any sequence of setMeshDimension, setCoords, allocateCells and insertNextCell, whatever calls threw, the connectivity holds exactly the cells accepted since the last allocateCells, in order; a call is refused exactly when the dimension is out of [-1,3], the number of cells is negative, nothing is allocated, or the type does not exist, has another dimension or another number of nodes; a refused call changes nothing. The observers (type of a cell, nodes of a cell, number of cells of a type, ids of the cells of a type, set of types, runs of types) describe that list.", "quantifier": "all histories of calls, all types, all node lists", "why_tests_cant": "the offsets and the cursor in the connectivity depend on the whole history, including the calls that threw", "anchors": ["MEDCoupling/MEDCouplingUMesh.cxx: allocateCells, insertNextCell, setMeshDimension, getTypeOfCell, getNodeIdsOfCell, giveCellsWithType, getNumberOfCellsWithType, getAllGeoTypesSorted, computeTypes", "MEDCoupling/MEDCouplingUMesh_internal.cxx: ComputeAllTypesInternal"]}
{"id": "C52", "title": "Consistency checks of an unstructured mesh accept exactly the usable meshes", "statement": "checkConsistency returns normally exactly on meshes without dimension problem whose cells all have an existing type of the dimension of the mesh, the number of nodes required by the type, and nodes in [0, number of nodes), the separator -1 being allowed in polyhedra only; otherwise it throws. checkGeomConsistency moreover requires that no cell repeats a node.", "quantifier": "all meshes reached by any history of construction calls", "why_tests_cant": "acceptance and refusal must be exact for all cells, types and node ids", "anchors": ["MEDCoupling/MEDCouplingUMesh.cxx: checkConsistencyLight, checkConsistency, checkGeomConsistency"]}
{"id": "C53", "title": "Reverse nodal connectivity of an unstructured mesh is the exact transpose", "statement": "getReverseNodalConnectivity gives one group per node; the group of a node is the increasing list of the cells which hold it, each cell as many times as it holds the node (hence exactly once when cells do not repeat nodes). The separators of polyhedra are ignored. A node id which does not exist makes the function write outside its arrays.", "quantifier": "all meshes, any number of nodes", "why_tests_cant": "the filling searches the first free slot of each group; any wrong offset corrupts a neighbouring group only for some meshes", "anchors": ["MEDCoupling/MEDCouplingUMesh.cxx: getReverseNodalConnectivity"]}
{"id": "C54", "title": "Nodes in use and counts per cell", "statement": "computeFetchedNodeIds gives the increasing list of exactly the nodes of the cells. getNodeIdsInUse gives the old to new numbering of these nodes, in order, -1 for the others, and their number; it throws exactly when a node does not exist. On consistent meshes the numbers of nodes, of distinct nodes and of faces per cell are those of the cells.", "quantifier": "all meshes", "why_tests_cant": "depends on which nodes are unused, on the values of the types in the connectivity and on separators", "anchors": ["MEDCoupling/MEDCouplingUMesh.cxx: computeNodeIdsAlg, computeFetchedNodeIds, getNodeIdsInUse, computeNbOfNodesPerCell, computeEffectiveNbOfNodesPerCell, computeNbOfFacesPerCell"]}
{"id": "C55", "title": "Renumbering of nodes in the connectivity and zipCoords keep the geometry", "statement": "renumberNodesInConn, shiftNodeNumbersInConn, renumberNodesWithOffsetInConn and duplicateNodesInConn replace each node id by its image and change neither the types, nor the separators, nor the offsets. zipCoords keeps exactly the coordinates of the nodes in use, in the same order; each node of each cell has the same coordinates before and after, and all the nodes of the new mesh are used.", "quantifier": "all meshes, all coordinates, all renumbering arrays covering the nodes", "why_tests_cant": "in place rewriting of windows of any sizes; injectivity of the renumbering must hold for all sets of used nodes", "anchors": ["MEDCoupling/MEDCouplingUMesh.cxx: renumberNodesInConn, shiftNodeNumbersInConn, renumberNodesWithOffsetInConn, duplicateNodesInConn", "MEDCoupling/MEDCouplingPointSet.cxx: zipCoordsTraducer, renumberNodes"]}
{"id": "C56", "title": "Renumbering, extraction and replacement of cells", "statement": "renumberCells moves cell i to position o2n[i]; with check it accepts any distinct values and sorts the cells by them, and refuses repeated values. buildPartOfMySelf (ids or slice) gives the designated cells in order, with the set of their types, and refuses ids out of range; extraction composes. setPartOfMySelf replaces the designated cells by those of the other mesh, leaves the others, and recomputes the types; wrong ids or a wrong number of ids are refused.", "quantifier": "all meshes, all permutations, all lists of ids, all slices", "why_tests_cant": "cells have different sizes: offsets must be right for every permutation and selection", "anchors": ["MEDCoupling/MEDCouplingUMesh.cxx: renumberCells, setPartOfMySelf", "MEDCoupling/MEDCouplingUMesh_internal.cxx: buildPartOfMySelfKeepCoords, buildPartOfMySelfKeepCoordsSlice"]}
{"id": "C57", "title": "Comparison policies of two cells", "statement": "Comparing two cells with policy 0, 1, 2 or 3 answers 1 exactly when they have the same list of nodes (0); the same type and the same nodes up to a rotation, without rotation for edges (1); the same type and the same set and number of nodes (2); the same set and number of nodes (3); otherwise 0. Each of these is an equivalence relation on cells. Policy 1 and 7 refuse cells of dimension 3. Policy 7 answers 1 for the same orientation, 2 for the reverse one. Policies 8 and 9 compare the ends of three node edges.", "quantifier": "all cells, all node lists, all types", "why_tests_cant": "rotations of node lists of any length, all pairs of types; transitivity", "anchors": ["MEDCoupling/MEDCouplingUMesh.cxx: AreCellsEqual, AreCellsEqualPolicy0, AreCellsEqualPolicy1, AreCellsEqualPolicy2, AreCellsEqualPolicy2NoType, AreCellsEqualPolicy7, AreCellsEqualPolicy8, AreCellsEqualPolicy9"]}
{"id": "C58", "title": "findCommonCells finds exactly the classes of equal cells", "statement": "For policies 0 to 3 and meshes whose cells use existing nodes, each at most once, findCommonCells(compType, start) returns groups which are exactly the classes of the cells with id >= start that are equal to another cell of the mesh (of any id): each class once, complete, sorted, without repetition, disjoint; no other group.", "quantifier": "all meshes, all start ids, policies 0 to 3", "why_tests_cant": "completeness of a search through intersections of node to cell lists with marks; the result depends on all cells", "anchors": ["MEDCoupling/MEDCouplingUMesh.cxx: findCommonCells, FindCommonCellsAlg, FindCommonCellsAlgPrivate", "MEDCoupling/MEDCouplingUMesh_internal.cxx: AreCellsEqualInPool"]}
{"id": "C59", "title": "zipConnectivityTraducer removes the duplicate cells and nothing else", "statement": "zipConnectivityTraducer returns an old to new numbering in which two cells have the same number exactly when they are equal for the policy (for start > 0: equal and one class member has id >= start); the new mesh holds, for each number, a cell equal to all cells of that number (the last one); numbers follow the order of first cells; the new cells are pairwise different and the set of types is recomputed.", "quantifier": "all meshes, all start ids, policies 0 to 3", "why_tests_cant": "composition of the search, of the numbering of groups and of the extraction", "anchors": ["MEDCoupling/MEDCouplingPointSet.cxx: zipConnectivityTraducer", "MEDCoupling/MEDCouplingMemArray.txx: ConvertIndexArrayToO2N"]}
{"id": "C60", "title": "Merge, fusion and inclusion of meshes on the same coordinates", "statement": "MergeUMeshesOnSameCoords concatenates the cells; it throws exactly when the list is empty, coordinates differ or dimensions are unset or differ. FuseUMeshesOnSameCoords gives for each mesh the number of each of its cells in the result; two cells of any two meshes get the same number exactly when they are equal, and the result holds no duplicates. areCellsIncludedIn returns true exactly when each cell of the other mesh equals a cell of this mesh; a found cell gets the id of the last equal cell; when this mesh holds no duplicate a missing cell gets an id beyond the cells of this mesh.", "quantifier": "all lists of meshes, all cells, policies 0 to 3 (0 to 2 for inclusion)", "why_tests_cant": "offsets accumulate over any number of meshes; the ids depend on the numbering of all classes", "anchors": ["MEDCoupling/MEDCouplingUMesh.cxx: MergeUMeshesOnSameCoords, FuseUMeshesOnSameCoords, areCellsIncludedIn, areCellsIncludedInPolicy7"]}
{"id": "C61", "title": "Gradual spread from seeds reaches exactly the cells within the given depth", "statement": "On a graph of neighbours with valid ids, ComputeSpreadZoneGraduallyFromSeed returns, without repetition and in increasing order, exactly the cells which can be reached from the seeds: in any number of steps when the depth is -1, in at most that number of steps when the depth is not negative. The number of rounds it reports is a number of steps which is enough to reach the same cells, and each round but the last one reached a new cell. A seed which is not a cell throws.", "quantifier": "all graphs with valid neighbour ids (symmetric or not, with loops, repeated neighbours), all lists of seeds, all depths", "why_tests_cant": "reachability in graphs of any size; the number of rounds is unbounded", "anchors": ["MEDCoupling/MEDCouplingUMesh.cxx: ComputeSpreadZoneGradually, ComputeSpreadZoneGraduallyFromSeed", "MEDCoupling/MEDCouplingUMesh_internal.cxx: ComputeSpreadZoneGraduallyFromSeedAlg"]}
{"id": "C62", "title": "PartitionBySpreadZone splits the cells into connected components", "statement": "On a graph of neighbours with valid ids PartitionBySpreadZone returns non empty, strictly increasing, pairwise disjoint lists of cells which cover all cells, ordered by their smallest cell. When the neighbour relation is symmetric each list is exactly one connected component. An empty index array throws.", "quantifier": "all graphs with valid neighbour ids", "why_tests_cant": "any number of components and shapes; marks shared between successive spreads", "anchors": ["MEDCoupling/MEDCouplingUMesh.cxx: PartitionBySpreadZone"]}
{"id": "C63", "title": "buildDescendingConnectivity lists every face once and gives both correspondences", "statement": "On a mesh whose cells have distinct existing nodes buildDescendingConnectivity succeeds. The mesh it returns holds the sub cells of the cells, each set of nodes once, in the order of their first appearance and with the nodes of this first appearance. desc/descIndx give for each cell, in the order of its sub cells, the face with the same nodes. revDesc/revDescIndx give for each face the cells which have it, in increasing order, as many times as they have it.", "quantifier": "all meshes of dimension 0 to 3 of any mix of types with a fixed number of nodes, polygons, quadratic polygons and polyhedra, with any number of cells", "why_tests_cant": "any connectivity; fusion of faces is a search over reverse connectivity, correspondences are built by running positions", "anchors": ["MEDCoupling/MEDCouplingUMesh.cxx: buildDescendingConnectivity", "MEDCoupling/MEDCouplingUMesh_internal.hxx: buildDescendingConnectivityNoFuseGen, buildDescendingConnectivityGen"]}
{"id": "C64", "title": "buildDescendingConnectivity2 signs the faces by orientation", "statement": "buildDescendingConnectivity2 builds the same mesh of faces and the same revDesc as buildDescendingConnectivity. The first cell which has a face gets the number of the face plus one; any other one gets the same number or its opposite by the comparison of the orientations. In a 2D mesh of linear cells the number is positive exactly when the cell covers the edge in the direction it is stored in. In a 3D mesh of linear cells it is positive exactly when the cell sees the nodes of the face in the cyclic order they are stored in, negative when it sees them in the opposite cyclic order.", "quantifier": "all meshes as in C63 whose faces with the same nodes can be compared; linear meshes of dimension 2 and 3 of any size", "why_tests_cant": "any connectivity, any rotation of the nodes of the faces", "anchors": ["MEDCoupling/MEDCouplingUMesh.cxx: buildDescendingConnectivity2", "MEDCoupling/MEDCouplingUMesh_internal.hxx: buildDescendingConnectivityNoFuseGen, buildDescendingConnectivityGen", "MEDCoupling/MEDCouplingUMesh_internal.cxx: MEDCouplingOrientationSensitiveNbrer"]}
{"id": "C65", "title": "Edges of 3D meshes and micro edges of 2D meshes are listed once with both correspondences", "statement": "explode3DMeshTo1D gives the edges of the cells of a 3D mesh, each once, with the correspondences in both directions; the edges of a polyhedron are the sides of its faces, each once whatever its direction. It refuses other dimensions. explodeMeshIntoMicroEdges gives on a 2D mesh the sides of the cells cut at their middle nodes, each once.", "quantifier": "all 3D meshes without HEXA27 whose cells have distinct nodes, all 2D meshes of types with a fixed number of nodes", "why_tests_cant": "any connectivity, polyhedra with any faces", "anchors": ["MEDCoupling/MEDCouplingUMesh.cxx: explode3DMeshTo1D, explodeMeshIntoMicroEdges", "INTERP_KERNEL/CellModel.cxx: computeAllEdgesForPolyhedron, fillMicroEdgeNodalConnectivity, getNumberOfMicroEdges", "MEDCoupling/MEDCouplingUMesh_internal.hxx: buildDescendingConnectivityNoFuseGen, buildDescendingConnectivityGen"]}
{"id": "C66", "title": "Neighbours of cells through shared faces, and spread zones", "statement": "computeNeighborsOfCells gives, for each cell, one block per face of the cell with the other cells that have a face with the same nodes; so a cell is a neighbour of another one exactly when they share a face, the relation is symmetric, and a neighbour is repeated as many times as faces are shared. ComputeNeighborsOfCellsAdv does the same from any descending connectivity. partitionBySpreadZone cuts the cells into the classes of cells linked by a chain of shared faces: each cell is in exactly one zone, two cells are in the same zone exactly when such a chain exists.", "quantifier": "For every mesh of dimension 0 to 3 made of cells with existing, non repeated nodes (static types, polygons, polyhedra); for every descending connectivity whose face numbers exist.", "why_tests_cant": "The number of cells, their types, and how faces are shared are unbounded; a test sees a few hand made meshes, in which chains are short and no two cells share two faces.", "anchors": ["MEDCoupling/MEDCouplingUMesh.cxx: MEDCouplingUMesh::computeNeighborsOfCells", "MEDCoupling/MEDCouplingUMesh.cxx: MEDCouplingUMesh::ComputeNeighborsOfCellsAdv", "MEDCoupling/MEDCouplingUMesh.cxx: MEDCouplingUMesh::partitionBySpreadZone"]}
{"id": "C67", "title": "Skin and boundary of a mesh", "statement": "computeSkin gives exactly the faces that occur once among the faces of all the cells, in the order of their first appearance; findBoundaryNodes gives the increasing list of the nodes of these faces; buildBoundaryMesh gives the same cells as computeSkin when there is at least one; findCellIdsOnBoundary gives the increasing list of the cells that have such a face.", "quantifier": "For every mesh of dimension 1 to 3 (0 to 3 for the cells on the boundary) made of cells with existing, non repeated nodes.", "why_tests_cant": "Whether a face is shared depends on all the other cells of the mesh; a test checks the skins of a few meshes.", "anchors": ["MEDCoupling/MEDCouplingUMesh.cxx: MEDCouplingUMesh::computeSkin", "MEDCoupling/MEDCouplingUMesh.cxx: MEDCouplingUMesh::findBoundaryNodes", "MEDCoupling/MEDCouplingUMesh.cxx: MEDCouplingUMesh::buildBoundaryMesh", "MEDCoupling/MEDCouplingUMesh.cxx: MEDCouplingUMesh::findCellIdsOnBoundary"]}
{"id": "C68", "title": "Neighbours of nodes along the edges", "statement": "computeNeighborsOfNodes gives, for each node, the nodes at the other end of the edges of the mesh that hold it: in 1D the other ends of the segments; in 2D and 3D two nodes are neighbours exactly when one follows the other around a cell (2D) or around a face of a cell (3D), and each neighbour is given once. Other dimensions are refused.", "quantifier": "For every 1D mesh of linear segments, every 2D mesh of triangles, quadrangles and polygons, every 3D mesh of linear static cells and polyhedra, with existing, non repeated nodes; any number of nodes.", "why_tests_cant": "The edges around a node depend on all the cells of the mesh, which are unbounded in number; a test looks at one or two meshes.", "anchors": ["MEDCoupling/MEDCouplingUMesh.cxx: MEDCouplingUMesh::computeNeighborsOfNodes"]}
{"id": "C69", "title": "Nodes of a same cell, cells around the nodes of a cell", "statement": "computeEnlargedNeighborsOfNodes gives, for each node and in increasing order, the other nodes of all the cells that hold it. computeCellNeighborhoodFromNodesOne gives, for each cell and in increasing order, the ids of the groups of its nodes except its own id; with the reverse nodal connectivity as groups these are the cells that share a node with it. An index that does not have one group per node is refused.", "quantifier": "For every mesh whose nodes exist (separators of polyhedra allowed) and every grouping of the nodes.", "why_tests_cant": "A statement on all meshes and all groupings, including nodes used by no cell and repeated nodes.", "anchors": ["MEDCoupling/MEDCouplingUMesh.cxx: MEDCouplingUMesh::computeEnlargedNeighborsOfNodes", "MEDCoupling/MEDCouplingUMesh.cxx: MEDCouplingUMesh::computeCellNeighborhoodFromNodesOne"]}
{"id": "C70", "title": "Cells lying on nodes and on a mesh of faces", "statement": "getCellIdsLyingOnNodes gives the increasing list of the cells all whose nodes (or one of whose nodes) are among the given ones, whatever repeated, negative or unused ids are given. findCellIdsLyingOn gives the cells with a node of the other mesh and the positions, among them, of exactly the cells that have a cell of the other mesh as a face; no such cell is missed; the call throws when a cell of the other mesh is not a face of a cell.", "quantifier": "For every mesh and every list of node ids; for the second function, every mesh of dimension 0 to 3 whose sub cells with the same nodes have the same type and every non empty mesh of one dimension less on the same coordinates.", "why_tests_cant": "The two lists depend on all the cells of both meshes; a test compares them on one mesh.", "anchors": ["MEDCoupling/MEDCouplingUMesh_internal.cxx: MEDCouplingUMesh::fillCellIdsToKeepFromNodeIds", "MEDCoupling/MEDCouplingPointSet.cxx: MEDCouplingPointSet::getCellIdsLyingOnNodes", "MEDCoupling/MEDCouplingUMesh.cxx: MEDCouplingUMesh::findCellIdsLyingOn"]}
{"id": "C71", "title": "Blocks of cells of the same type", "statement": "On any mesh, checkConsecutiveCellTypes answers true exactly when no cell of another type lies between two cells of the same type; checkConsecutiveCellTypesAndOrder(order) answers true exactly when, in addition, the types present in order come in the order of order. getDistributionOfTypes returns, for each type in the order of the cells, the type, its number of cells and -1, and throws on a mesh whose types are not contiguous.", "quantifier": "for every unstructured mesh (any number of cells and types) and every list of types", "why_tests_cant": "The loops jump from block to block with find_if; a wrong jump shows only for particular sequences of types, of which there are infinitely many.", "anchors": ["MEDCoupling/MEDCouplingUMesh.cxx: MEDCouplingUMesh::getDistributionOfTypes, checkConsecutiveCellTypes, checkConsecutiveCellTypesAndOrder, checkConsecutiveCellTypesForMEDFileFrmt", "MEDCoupling/MEDCouplingUMesh_internal.hxx: ConnReader"]}
{"id": "C72", "title": "Sorting the cells by type", "statement": "getRenumArrForConsecutiveCellTypesSpec(order) returns a permutation that keeps the order of the cells of the same type and after renumberCells the mesh passes checkConsecutiveCellTypesAndOrder(order); it throws when a type is not in order. sortCellsInMEDFileFrmt applies it for the MED file order. When rearrange2ConsecutiveCellTypes returns, the cells are grouped by type in the order of first appearance, those of the same type keep their order, and the returned array is the permutation applied. FINDING: rearrange2ConsecutiveCellTypes never returns on some meshes (types 3,4,3,5).", "quantifier": "for every mesh and every list of types; the finding: for every number of loop turns", "why_tests_cant": "The result depends on the whole sequence of types; non-termination cannot be seen by a passing test.", "anchors": ["MEDCoupling/MEDCouplingUMesh.cxx: MEDCouplingUMesh::getLevArrPerCellTypes, getRenumArrForConsecutiveCellTypesSpec, getRenumArrForMEDFileFrmt, sortCellsInMEDFileFrmt, rearrange2ConsecutiveCellTypes"]}
{"id": "C73", "title": "Profiles split by type and put together again", "statement": "On a mesh sorted by type, splitProfilePerType(profile) returns per type of the profile, in the order of the mesh, the number of its cells and the list of these cells counted from the first cell of the type, or -1 instead of the list when it is all the cells of the type in order and smartPflKiller is set, together with their places in the profile; it throws if the mesh is not sorted by type or a value is not a cell. checkTypeConsistencyAndContig applied to the result gives back the profile grouped by type (the profile itself when it is increasing), the null pointer standing for all the cells of the mesh; it throws on an empty code, a size not multiple of 3, unknown or repeated types, a wrong order without profile, missing, null or out of range profiles. FINDINGS: the numbers of cells given in the code are never compared with the mesh although documented; too small a number makes it write past the end of its result, too large a number leaves values uninitialised, and types in another order than the mesh with a profile make it run past the last cell.", "quantifier": "for every mesh sorted by type, every profile of cells and every code and profiles", "why_tests_cant": "The round trip must hold for every profile and every arrangement of types; the out of bounds accesses are silent in a test.", "anchors": ["MEDCoupling/MEDCouplingUMesh.cxx: MEDCouplingUMesh::splitProfilePerType, checkTypeConsistencyAndContig", "MEDCoupling/MEDCouplingMemArray.cxx: DataArrayIdType::splitByValueRange"]}
{"id": "C74", "title": "Cells picked, split and aggregated by type", "statement": "splitByType returns one mesh per maximal block of consecutive cells of the same type, in order. keepCellIdsByType keeps the ids of the cells of the given type, in order; convertCellArrayPerGeoType replaces each cell by the number of cells of its type before it. On a mesh sorted by type keepSpecifiedCells(type, ids) keeps the cells of the other types and, in the place of the ones of this type, the ones whose numbers within the type are given; it throws on a number out of the type. AggregateSortedByTypeMeshesOnSameCoords puts the blocks of the meshes in the order of types of MED files, keeping the order of the blocks of the same type, returns the sizes of the blocks and the meshes they come from, and its mesh passes checkConsecutiveCellTypesForMEDFileFrmt; it throws on no mesh and on meshes of other coordinates or dimension. FINDING: keepCellIdsByType does not check the ids and reads out of the connectivity.", "quantifier": "for every mesh, every list of ids and every list of meshes on the same coordinates", "why_tests_cant": "The order of the blocks of the same type depends on all meshes at once; tests use two or three meshes already in the right order.", "anchors": ["MEDCoupling/MEDCouplingUMesh.cxx: MEDCouplingUMesh::splitByType, keepCellIdsByType, convertCellArrayPerGeoType, keepSpecifiedCells, AggregateSortedByTypeMeshesOnSameCoords"]}
{"id": "C75", "title": "Conversions between unstructured meshes and meshes with a single type", "statement": "MEDCoupling1SGTUMesh::New(umesh) and convertNodalConnectivityToStaticGeoTypeMesh succeed exactly when all cells have one static type and the right number of nodes, and give the nodes of the cells one after the other; MEDCoupling1DGTUMesh::New and convertNodalConnectivityToDynamicGeoTypeMesh do the same for dynamic types with the index of the cells. buildUnstructured holds the same cells in the same order, so going to an unstructured mesh and back gives the same type, nodes and index. AggregateOnSameCoordsToUMesh holds the cells of all the meshes, mesh after mesh; it throws on no mesh, other coordinates or another dimension. FINDING: a 1DGT mesh whose index does not cover its nodes passes the consistency checks, but buildUnstructured and the aggregation then give a connectivity that ends with uninitialised values.", "quantifier": "for every mesh, every type and every list of meshes with a single type", "why_tests_cant": "The cells can have any sizes and the index of a 1DGT mesh can leave values out at both ends; tests use packed meshes with a few cells.", "anchors": ["MEDCoupling/MEDCoupling1GTUMesh.cxx: MEDCoupling1SGTUMesh::New, MEDCoupling1SGTUMesh::buildUnstructured, MEDCoupling1DGTUMesh::New, MEDCoupling1DGTUMesh::buildUnstructured, MEDCoupling1GTUMesh::AggregateOnSameCoordsToUMesh", "MEDCoupling/MEDCouplingUMesh.cxx: MEDCouplingUMesh::convertNodalConnectivityToStaticGeoTypeMesh, convertNodalConnectivityToDynamicGeoTypeMesh"]}
{"id": "C76", "title": "Parts, renumbering, packing and merging of meshes with a single type", "statement": "The parts of 1SGT and 1DGT meshes hold the given cells in the given order with their repetitions, and an id out of the mesh throws. renumberCells moves cell i to position o2n[i]; with check, distinct values are replaced by their ranks and repeated values throw. isPacked tells whether every value of the nodes belongs to a cell, retrievePackedNodalConnectivity keeps the cells and drops the other values. Merge1SGTUMeshesOnSameCoords and Merge1DGTUMeshesOnSameCoords hold the cells mesh after mesh; Merge1SGTUMeshes and Merge1DGTUMeshes moreover number the nodes of each mesh after the ones of the previous meshes and keep the face separators -1. All of them throw on no mesh, on another type and on other coordinates. FINDING: renumberCells of a 1DGT mesh whose index does not cover its nodes gives a connectivity that ends with uninitialised values.", "quantifier": "for every mesh, every list of ids, every permutation and every list of meshes", "why_tests_cant": "The offsets depend on the sizes of all the cells and meshes before; tests use two or three meshes and one permutation.", "anchors": ["MEDCoupling/MEDCoupling1GTUMesh.cxx: MEDCoupling1SGTUMesh::renumberCells, buildPartOfMySelfKeepCoords, buildPartOfMySelfKeepCoordsSlice, Merge1SGTUMeshesOnSameCoords, Merge1SGTUMeshesLL, MEDCoupling1DGTUMesh::renumberCells, isPacked, retrievePackedNodalConnectivity, Merge1DGTUMeshesOnSameCoords, Merge1DGTUMeshesLL, AggregateNodalConnAndShiftNodeIds"]}
{"id": "C77", "title": "The search trees over boxes and points return exactly what a plain scan of the elements returns", "statement": "The trees over boxes, points and integer tuples are built without error from any set of elements and hold each element once. A search by a box returns exactly the boxes which meet the given one up to epsilon, and the count is the number of boxes returned. A search by a point returns exactly the boxes which contain it up to epsilon. In a tree of points, a search returns exactly the points within epsilon along each axis, and the search of the closest point under a threshold returns a closest one or nothing. A tree of integer tuples returns exactly the tuples equal to the given one.", "quantifier": "for all dimensions, numbers of elements, coordinates, epsilons, thresholds and searched boxes or points", "why_tests_cant": "A tree prunes whole branches from two numbers stored in each node; whether a pruned branch may hold an answer depends on the coordinates, the ties with the median and the sign of epsilon, which no finite set of meshes covers.", "anchors": ["INTERP_KERNEL/BBTree.txx: BBTree::BBTree, getIntersectingElems, getNbOfIntersectingElems, getElementsAroundPoint, size", "INTERP_KERNEL/BBTreePts.txx: BBTreePts, getElementsAroundPoint, getElementsAroundPoint2", "INTERP_KERNEL/BBTreeDiscrete.txx: BBTreeDiscrete, getIntersectingElems"]}
{"id": "C78", "title": "The searches of the boxes closest to a point lose no closest object and are exact for a single point", "statement": "The distances from a point to a box, and between two boxes, used by the searches are the smallest and largest squared distances between points of them. candidatesClosestTo ends without error and returns, for each point, each box which may hold the object closest to the point, hence the box of the closest object; for the first point, and for all the points when there are fewer than fifteen boxes, it returns no other box and each box once; the index delimits the parts. In the tree of distances, the first search gives the smallest distance of the farthest points and the second one exactly the boxes under a threshold, so that a closest cell is kept when no box is a single point. On the blocks of a tree, the selection returns exactly the leaves under the threshold. A tree sent in compact form is rebuilt with the same nodes and boxes.", "quantifier": "for all dimensions 1 to 3 (all dimensions for the trees), boxes, points, numbers of points, thresholds, and all arrangements left by the partial sort", "why_tests_cant": "The candidates depend on the order of visit of the leaves, on the values refined on the way and on the state left in the tree by the previous points; tests check a few points on small trees, where the leftover state does not show.", "anchors": ["MEDCoupling/MEDCouplingMemArray.cxx: DataArrayDouble::candidatesClosestTo, CandidatesClosestToInternal", "INTERP_KERNEL/BBTreeClosest.txx: BBTreeClosest, getMinOfMaxes, refineMax, filter, getClosestCandidates, bboxMinOfMaxes, bboxSelect, serialize, serializeCompact, Deserialize, DeserializeCompact", "INTERP_KERNEL/BBTreeDst.txx: BBTreeDst, getMinDistanceOfMax, getElemsWhoseMinDistanceToPtSmallerThan", "INTERP_KERNEL/InterpKernelBBoxDistance.txx: HighLevelDistInternal, HighLevelBBDistInternal", "INTERP_KERNEL/BBTree.txx: LeafIterator"]}
{"id": "C79", "title": "The distances from a point to a segment and to a triangle are the smallest distances to their points", "statement": "The squared distance from a point to a segment of the plane and the distance to a segment of the space are reached at a point of the segment, and no point of the segment is closer, also when the segment is a single point. The distance from a point to a triangle of the space is reached at a point of the triangle, and no point of the triangle is closer, also when the triangle is flat, provided that its area is zero or not under the threshold and that, when the point is beyond a corner of the third edge, the two first edges have the same length. Without these two conditions the returned distance is too large or too small for some triangles.", "quantifier": "for all points, segments and triangles", "why_tests_cant": "The triangle code has seven regions and some twenty branches; which one is taken depends on the position of the point and on the shape of the triangle. The wrong branch gives the right answer for triangles whose two first edges have the same length, which is the case of the usual test triangles.", "anchors": ["INTERP_KERNEL/VolSurfUser.cxx: SquareDistanceFromPtToSegInSpaceDim2, DistanceFromPtToSegInSpaceDim3, DistanceFromPtToTriInSpaceDim3, _HelperDistancePtToTri3D_1, _HelperDistancePtToTri3D_2"]}
{"id": "C80", "title": "distanceToPoints gives the distance to the mesh and a cell at this distance; the boxes of the cells are exact", "statement": "getBoundingBoxForBBTree returns one box per cell, in order; each bound is the coordinate of a node of the cell and all the nodes of the cell are in its box; it throws when a cell has no node. distanceToPoints on a curve of the plane made of segments, and on a surface made of triangles for which the distance to one triangle is exact, returns for every point the smallest distance to a point of the mesh and the id of a cell at this distance, provided that no cell is reduced to a point and that the coordinates are not huge. It throws when the dimensions do not fit or when there is no cell. The id is not always the first one, and a point cell closest to the point makes the search undefined.", "quantifier": "for all meshes of segments in the plane or of triangles in the space, all numbers of cells and all points", "why_tests_cant": "The cells are chosen by a search tree which only splits from fifteen cells on, with a strict comparison between the smallest and the largest distances to boxes; the answer depends on the positions of all the boxes.", "anchors": ["MEDCoupling/MEDCouplingUMesh.cxx: MEDCouplingUMesh::distanceToPoints, MEDCouplingUMesh::distanceToPoint, MEDCouplingUMesh::getBoundingBoxForBBTree, MEDCouplingUMesh::getBoundingBoxForBBTreeFast", "MEDCoupling/MEDCouplingUMesh_internal.cxx: MEDCouplingUMesh::DistanceToPoint3DSurfAlg, MEDCouplingUMesh::DistanceToPoint2DCurveAlg"]}
{"id": "C81", "title": "A remapping gives the weighted sums of the nature of the field, and keeps what the nature promises", "statement": "After setCrudeMatrix and any sequence of transfers, partial transfers and reverse transfers, a transfer gives on every target entity the sum of the source values times the coefficients of the matrix divided by the denominators of the nature (sum of the row, measure of the source entity, sum of the column, measure of the target entity), whatever the natures used before. An entity without coefficient gets the default value, or keeps its value in a partial transfer. A reverse transfer does the same with the transposed matrix. With the intensive maximum the values stay between the bounds of the source values and a uniform field stays uniform; with the extensive conservation the sum of the values is kept; with the intensive conservation the integral is kept; with the extensive maximum a uniform density is kept, and the value on a global entity is the sum of the values. Fields which do not fit the preparation are refused with an exception, except for the number of entities of the receiving field, which is not checked.", "quantifier": "for all matrices, fields, natures, numbers of components and all sequences of transfers and reverse transfers", "why_tests_cant": "The denominators are kept in the object and read by position along the rows; whether an old denominator is reused depends on the whole history of natures and calls, and the sums must hold for all matrices.", "anchors": ["MEDCoupling/MEDCouplingRemapper.cxx: MEDCouplingRemapper::setCrudeMatrixEx, MEDCouplingRemapper::transfer, MEDCouplingRemapper::partialTransfer, MEDCouplingRemapper::reverseTransfer, MEDCouplingRemapper::transferUnderground, MEDCouplingRemapper::computeDeno, MEDCouplingRemapper::computeDenoFromScratch, MEDCouplingRemapper::computeProduct, MEDCouplingRemapper::computeReverseProduct, MEDCouplingRemapper::ComputeRowSumAndColSum, MEDCouplingRemapper::ComputeColSumAndRowSum"]}
{"id": "C82", "title": "The crude matrix of a remapper can be reduced, transposed and built from the matrices of extruded meshes", "statement": "nullifiedTinyCoeffInCrudeMatrixAbs removes exactly the coefficients whose magnitude is at most the threshold and returns their number; nullifiedTinyCoeffInCrudeMatrix does the same with a part of the largest magnitude, and returns -1 without change when all the coefficients are zero; the transfers which follow on a fresh matrix use the reduced matrix. ReverseMatrix gives the transposed matrix, and twice gives the matrix back. The matrix of extruded meshes has as coefficients the products of the coefficients of the bases and of the levels, for every numbering of the extruded cells.", "quantifier": "for all matrices, thresholds and numberings", "why_tests_cant": "The four nested loops write through two arrays of correspondence; that no product is overwritten and none is missing depends on all the sizes.", "anchors": ["MEDCoupling/MEDCouplingRemapper.cxx: MEDCouplingRemapper::nullifiedTinyCoeffInCrudeMatrixAbs, MEDCouplingRemapper::nullifiedTinyCoeffInCrudeMatrix, MEDCouplingRemapper::getMaxValueInCrudeMatrix, MEDCouplingRemapper::ReverseMatrix, MEDCouplingRemapper::buildFinalInterpolationMatrixByConvolution"]}
{"id": "C83", "title": "A written expression is evaluated to the value which its operators, brackets and functions mean", "statement": "For an expression made of numbers, variables, signs, brackets, the operators + - * / ^ > <, the functions of one parameter, max, min and if, written by the rules of precedence (a sign binds more than ^, then * and /, then + and -, then comparisons; operators of a same precedence from left to right), with white spaces anywhere, the parser accepts the text and the evaluation of a constant expression gives the value of the expression, however deep it is and however its numbers are written (figures, point, exponent), provided that each number is written with at least as many characters as its rank. Out of these rules: a number starting with a point is silently replaced by another number of the expression or refused, a sign before a function, two signs after an operator, a comparison in an operand and a function of two parameters inside a function are refused, and a sum of fourteen figures is refused.", "quantifier": "for all expressions of the grammar, all depths, all texts of numbers and all arithmetics", "why_tests_cant": "Expressions are unbounded in size and nesting; the numbers are first replaced by their ranks in the text, and the positions move with the length of the ranks, so that errors appear only for some numbers of numbers.", "anchors": ["src/INTERP_KERNEL/ExprEval/InterpKernelExprParser.cxx: ExprParser::parse, simplify, parseUnaryFunc, parseForAddMin, parseForMulDiv, parseForPow, parseForCmp, fillValuesInExpr, ReplaceAndTraduce, evaluateDouble", "src/INTERP_KERNEL/ExprEval/InterpKernelFunction.cxx: FunctionsFactory, operateStackOfDouble"]}
{"id": "C84", "title": "applyFunc computes each value of the result from its tuple, with the variables bound as announced, and the safe mode only refuses", "statement": "applyFuncNamedCompo gives an array with the asked number of components whose value for each tuple and component is the value of the expression where each variable is the component of the tuple of the same rank in the given names (the first one when repeated) and where IVec, JVec, ... are 1 for their component and 0 for the others. applyFunc with a number of components takes the variables in alphabetical order. applyFunc with one variable applies it to each value. A variable without value, more names than components and, for the last one, two variables are refused. Without the safe mode there is always a result. In the safe mode no result is given when a function is applied out of its domain for one tuple, an exception is raised when this happens in the first half of the tuples, and a result is the one given without the safe mode. Findings: otherwise the message reads out of the array; a constant expression ignores the safe mode; an expression with a unitary vector alone reads an unset number.", "quantifier": "for all expressions of the grammar, arrays, numbers of tuples and components, and orders of variables", "why_tests_cant": "The binding of the variables goes through sets, positions and pointers kept in the tree, reused for all tuples with one stack; an error shows for some combination of names, components and tuples only.", "anchors": ["src/MEDCoupling/MEDCouplingMemArray.cxx: DataArrayDouble::applyFunc, applyFuncNamedCompo", "src/INTERP_KERNEL/ExprEval/InterpKernelExprParser.cxx: prepareExprEvaluationDouble, getTrueSetOfVars, LeafExprVar", "src/INTERP_KERNEL/ExprEval/InterpKernelExprParser.hxx: ExprParserOfEval"]}
{"id": "C85", "title": "A block topology puts every element on one processor and knows it both ways", "statement": "For a BlockTopology over a cartesian grid, from the numbers of elements of the processors, or combined with the components of a field, getNbLocalElements adds up to getNbElements; globalToLocal sends every element to one processor and one local number, localToGlobal on that processor gives it back, every local number is reached and the local order is the global order. A grid is cut along its first direction in blocks whose sizes differ by at most one; components are cut the same way when there is one processor for the elements. A topology sent by serialize and rebuilt by unserialize is the same, with the processors in increasing order of world ranks. Impossible splits are refused.", "quantifier": "all groups of processors, all grids of all dimensions and sizes, all numbers of elements per processor, all component splits, all combinations of them, all elements", "why_tests_cant": "The correspondence is arithmetic on offsets in several directions: tests look at a few sizes, while the claim is a bijection for all sizes, remainders and processors.", "anchors": ["src/ParaMEDMEM/BlockTopology.cxx: BlockTopology::BlockTopology, globalToLocal, localToGlobal, getNbLocalElements, serialize, unserialize", "src/ParaMEDMEM/BlockTopology.hxx: BlockTopology", "src/ParaMEDMEM/ComponentTopology.cxx: ComponentTopology"]}
{"id": "C86", "title": "The exchange between two distributions of the same elements brings every value to its place", "statement": "When a field is known on the processors of one group with a block topology, and a second group has another block topology over as many elements, StructuredCoincidentDEC (synchronize, then sendData on one side and recvData on the other) gives every element, on the processor and at the place where the second topology puts it, the value it had where the first topology puts it. The sizes of the fields do not change. Topologies with different numbers of elements are refused by an exception.", "quantifier": "all worlds of at least four processors, all disjoint groups which cover the world in increasing order, all topologies of the previous property (grids, counts, components) on each side, all values", "why_tests_cant": "The place of a value depends on two distributions, the ranks in three groups and the packing of the buffers; tests exchange a few fields on a few processors.", "anchors": ["src/ParaMEDMEM/StructuredCoincidentDEC.cxx: prepareSourceDE, prepareTargetDE, synchronizeTopology, broadcastTopology, sendData, recvData", "src/ParaMEDMEM/DisjointDEC.cxx: DisjointDEC", "src/ParaMEDMEM/MPIAccess.cxx", "src/ParaMEDMEM/CommInterface.hxx: allToAllV"]}
{"id": "C87", "title": "The overlapping parts of two distributed meshes are shared out, each pair to one processor", "statement": "When an OverlapDEC is synchronized, two processors are paired when the box of the source mesh of the first and the box of the target mesh of the second come within the adjustment in every direction; boxes which share a point are always paired, processors without mesh never are. Each of the three work sharing algorithms (setWorkSharingAlgo 0, 1, 2) ends and gives every pair to exactly one processor, the one of its source or the one of its target, once, and gives no other work; the list of every processor is in increasing order. Another algorithm number is refused by an exception.", "quantifier": "all numbers of processors (twice that number fits in an int), all boxes of all dimensions, meshes missing or not, all adjustments, all pairings, all three algorithms", "why_tests_cant": "A pair lost or done twice changes the interpolated values only where the meshes of these two processors overlap, and the loop of the last two algorithms could run forever for some pairing; tests look at a few pairings on a few processors.", "anchors": ["src/ParaMEDMEM/OverlapElementLocator.cxx: computeBoundingBoxesAndInteractionList, intersectsBoundingBox, computeTodoList_original, computeTodoList_new, OverlapElementLocator"]}
{"id": "C88", "title": "The exchange of meshes between processors never blocks and brings the meshes needed", "statement": "After the work is shared, the processors exchange meshes with blocking sends and receives. In every execution, as long as a processor has something to do, some receive can take place, even when no send ends before its message is received: the exchange never blocks. Every execution ends. At the end every processor has received, in the order it asks for them, the five messages of each source mesh and each target mesh of other processors in its list of pairs, no other mesh, and no message is left.", "quantifier": "all numbers of processors, all work sharings where each list is increasing and concerns its processor, all contents of messages, all executions with all choices of which sends are kept", "why_tests_cant": "A deadlock or a mismatch between two meshes with the same tags depends on the timing and on the buffers of the MPI library: a test sees one execution on one library.", "anchors": ["src/ParaMEDMEM/OverlapElementLocator.cxx: exchangeMeshes, fillProcToSend, sendLocalMeshTo, receiveRemoteMeshFrom, sendMesh, receiveMesh"]}
{"id": "C89", "title": "A field sent by OverlapDEC is the weighted mean over all processors", "statement": "When fields of nature IntensiveMaximum are sent by an OverlapDEC, the preparation and the transfer end on every processor without error and without reading a value that was not received, and every target cell of every processor gets, for each component, the sum over all source cells of all processors it meets of value times weight divided by the sum of the weights of the cell; a target cell which meets no source cell gets the default value. So constants are kept on cells with non-zero weight, and the result does not depend on which processor computed which pair of meshes.", "quantifier": "all numbers of processors, all work sharings which give every pair of meshes once to one of its processors, all matrices of all pairs within the sizes of the meshes, all choices of the cells sent with a mesh, all fields of at least one component over any field of numbers, all default values", "why_tests_cant": "The numbering of rows and columns differs according to which processor has computed a pair, and values travel in compressed vectors whose offsets depend on all pairs: an error shows only for some sharings of the work on enough processors.", "anchors": ["src/ParaMEDMEM/OverlapMapping.cxx: keepTracksOfSourceIds, keepTracksOfTargetIds, addContributionST, prepare, serializeMatrixStep0ST, serializeMatrixStep1, fillSourceIdsZipReceivedForMultiply, unserializationST, finishToFillFinalMatrixST, fillIdsToSendST, updateZipSourceIdsForMultiply, computeDenoConservativeVolumic, multiply", "src/ParaMEDMEM/OverlapDEC.cxx: synchronize, sendData", "src/ParaMEDMEM/OverlapInterpolationMatrix.cxx: multiply"]}
{"id": "C90", "title": "Patches created from a criterion end, do not overlap, cover the marked cells and respect the limits", "statement": "MEDCouplingCartesianAMRMeshGen::createPatchesFromCriterion on a grid of dimension 2 or 3, with a smallest patch length from 1 to the number of cells of every axis, always ends without an invalid access. Either it throws and no patch is added, or the added patches are boxes of the grid, have the smallest length along every axis, are pairwise disjoint, hold each at least one marked cell, and every marked cell is in one of them; a patch with an efficiency at or below the goal is too small to be cut (all lengths below twice the smallest length), any other patch respects the largest number of cells and the largest length. It never throws when twice the smallest length minus one is at most the largest length and its power of the dimension is at most the largest number of cells. A criterion of the wrong size, a negative smallest length or one above an axis is refused.", "quantifier": "every cell grid of dimension 2 or 3, every criterion, every efficiency goal and threshold, every smallest length from 1 to the axis sizes, every largest length and largest number of cells", "why_tests_cant": "the patches depend on the whole criterion through a chain of cuts of four kinds; a test compares the boxes of a few criteria, it cannot show that every chain of cuts ends, never loses a marked cell and never leaves a box too small", "anchors": ["src/MEDCoupling/MEDCouplingCartesianAMRMesh.cxx: createPatchesFromCriterion, InternalPatch, DissectBigPatch, FindHole, FindInflection, TryAction4, DealWithCut", "src/MEDCoupling/MEDCouplingStructuredMesh.cxx: FindMinimalPartOf, ComputeSignaturePerAxisOf, FindTheWidestAxisOfGivenRangeInCompactFrmt", "src/INTERP_KERNEL/BoxSplittingOptions.hxx"]}
{"id": "C91", "title": "Cell fields are carried between a coarse grid and a refined part without loss or displacement", "statement": "MEDCouplingIMesh::CondenseFineToCoarse and CondenseFineToCoarseGhost, given a coarse cell structure of dimension 1 to 3, a range of coarse cells inside it, refinement factors of at least 1 and fields of the corresponding sizes, never read or write out of the arrays, set in every coarse cell of the range the sum of the values of the fine cells it contains (each exactly once, ghost cells never) and leave every other coarse cell unchanged. SpreadCoarseToFine (non-empty range, second and third factors equal in dimension 3) sets in every fine cell the value of the coarse cell which contains it. SpreadCoarseToFineGhost does it for the ghost layers too: a ghost receives the value of the first coarse layer out of the range, which is the coarse cell which contains it when the layer is not wider than the factor. SpreadCoarseToFineGhostZone does it for the ghosts only and leaves the other fine cells unchanged. Spreading then condensing multiplies the values of the range by the number of fine cells per coarse cell. Sizes which do not correspond and a negative ghost width are refused.", "quantifier": "every coarse structure of dimension 1 to 3, every range inside it, every factors from 1 (product below 2^31 for the functions without ghosts), every ghost width from 0, every fields with values in a commutative monoid", "why_tests_cant": "each function walks the arrays with pointers moved by hand in up to nine nested loops per dimension; a test compares a few sizes, it cannot show that no combination of range, factors and ghost width shifts a pointer or misses or repeats a fine cell", "anchors": ["src/MEDCoupling/MEDCouplingIMesh.cxx: CondenseFineToCoarse, CondenseFineToCoarseGhost, SpreadCoarseToFine, SpreadCoarseToFineGhost, SpreadCoarseToFineGhostZone, SpreadCoarseToFineGhost2D, SpreadCoarseToFineGhostZone2D"]}
{"id": "C92", "title": "The entities of a group are those of its families, at every level", "statement": "On a MEDFileUMesh whose groups lie on existing families, getGroupArr, getGroupsArr, getFamilyArr and getFamiliesArr return at a level which has a family array exactly the increasing ids of the entities whose family number is that of a family of one of the groups (each once, whatever the order of the names and the overlaps of the groups). An unknown group, an unknown family and a level which does not exist are refused. getGroupsOnFamily returns exactly the groups on the family, and getGroupsOnSpecifiedLev exactly the groups which have an entity at the level. Names built for new families are never those of an existing family.", "quantifier": "every set of families and groups, every family arrays on any levels, every list of groups", "why_tests_cant": "the answer goes through three maps (groups to families, families to numbers, entities to numbers); a test uses a few families, it cannot show that no combination of shared families, repeated numbers and levels loses or adds an entity", "anchors": ["src/MEDLoader/MEDFileMesh.cxx: getGroupArr, getGroupsArr, getFamilyArr, getFamiliesArr, getGroupsOnFamily, getGroupsOnSpecifiedLev, CreateNameNotIn"]}
{"id": "C93", "title": "Adding a group gives it the entities asked and leaves the others as they were", "statement": "MEDFileUMesh::addGroup (and addNodeGroup) on a consistent mesh, given a name, strictly increasing ids in range and a level where no entity is already in a group of that name, succeeds, and afterwards getGroupArr on the new name returns exactly the ids given, every other group returns the same entities as before at every level, a new group is empty at the other levels, the group names are the former ones and the new one, the family 0 has entered no group, and the mesh is consistent again (so that groups can be added one after the other), provided no family which belongs to a group, is used at another level and is partly in the new group. A level without array is handled as a level whose entities are all in the family 0. No level, no name, ids which do not increase or are out of range, entities already in the group are refused.", "quantifier": "every consistent mesh, every number of levels, families and groups however they overlap, every ids", "why_tests_cant": "families are kept, shared, renamed or cut in two depending on how the new group overlaps every family at every level; the number of such configurations is not bounded", "anchors": ["src/MEDLoader/MEDFileMesh.cxx: addGroup, addNodeGroup, addGroupUnderground, checkNoGroupClash, FindOrCreateAndGiveFamilyWithId, ChangeAllGroupsContainingFamily, getTheMaxAbsFamilyId"]}
{"id": "C94", "title": "Cleaning, merging and renaming families and groups never changes the entities of the groups", "statement": "On a MEDFileUMesh whose groups lie on existing families with different ids: removeEmptyGroups, removeGroup, removeFamiliesReferedByNoGroups, changeGroupName, changeFamilyName, changeFamilyId (to an id not in use), removeFamily, removeOrphanFamilies, removeOrphanGroups, createGroupOnAll, assignFamilyNameWithGroupName, rearrangeFamilies and zipFamilies leave every group that they do not name with exactly the same entities at every level (removeFamily only takes its own entities away), and the consistency of the mesh. removeGroupAtLevel empties the group at that level, leaves the other groups, and leaves the group at the levels that share none of its families with this level. createGroupOnAll makes a group of all entities of the level. After removeFamiliesReferedByNoGroups the families are those of a group and FAMILLE_ZERO; after removeOrphanFamilies they are those in use; after rearrangeFamilies every id of the arrays is 0 or that of a family left; after zipFamilies two different families never have the same groups. rearrangeFamilies is refused exactly when a group has FAMILLE_ZERO or the id 0, zipFamilies when a group has FAMILLE_ZERO, assignFamilyNameWithGroupName when two families would get one name. Unknown or already used names are refused.", "quantifier": "every consistent mesh: any levels, arrays, families and groups, however the groups overlap", "why_tests_cant": "each method edits three tables that must stay in agreement (arrays, families, groups); a test shows one configuration of shared families and levels, the number of configurations is not bounded", "anchors": ["src/MEDLoader/MEDFileMesh.cxx: assignFamilyNameWithGroupName, removeEmptyGroups, removeGroupAtLevel, removeGroup, removeFamily, removeOrphanGroups, removeOrphanFamilies, removeFamiliesReferedByNoGroups, rearrangeFamilies, zipFamilies, checkOrphanFamilyZero, changeGroupName, changeFamilyId, changeFamilyName, createGroupOnAll"]}
{"id": "C95", "title": "Groups set all at once at a level, families kept on given levels and normalised family ids leave the other groups as they were", "statement": "setGroupsAtLevel on a consistent MEDFileUMesh whose families named Family_k have ids reaching k: every non-empty group given has at the level exactly the entities given, whatever the overlaps; every other group of the mesh has none there; all groups keep their entities at the other levels; new groups have none there; the mesh stays consistent. Equal or empty names, an absent level and ids that are not those of entities are refused. keepFamIdsOnlyOnLevs, when no entity has an id above those of the families: every group keeps its entities at every level, no entity of a level that is not given has one of the families any more, the given levels are untouched, entities of other families keep theirs, and the answer is true exactly when nothing had to be changed. normalizeFamIdsMEDFile, when every family of a group is used at exactly one level: every group keeps its entities, families keep their names, ids of nodes are positive and ids of cells negative, two entities have the same id afterwards exactly when they are at the same level and had the same id. normalizeFamIdsTrio under the same condition: groups keep their entities at the levels 0 and -1, where ids are positive, respectively negative, and ids of other levels are 0. Both refuse a mesh without families.", "quantifier": "every consistent mesh, every list of groups with any overlaps, every list of family ids and levels", "why_tests_cant": "the partition into families depends on all overlaps of the groups, and the new ids and names must avoid those in use at all levels; a test settles one combination", "anchors": ["src/MEDLoader/MEDFileMesh.cxx: setGroupsAtLevel, appendFamilyEntries, TranslateFamilyIds, getMaxAbsFamilyId, getMaxFamilyId, keepFamIdsOnlyOnLevs, ensureDifferentFamIdsPerLevel, normalizeFamIdsMEDFile, normalizeFamIdsTrio", "src/MEDCoupling/MEDCouplingMemArray.txx: makePartition"]}
{"id": "C96", "title": "Gauss points are placed by shape functions of the reference cell which are exact for affine cells, with their true derivatives", "statement": "For every cell type that accepts Gauss localizations and every reference cell known for it: giving its nodes as reference coordinates is accepted; the shape functions sum to 1 at every point; so that the computed points follow every affine map (translation, rotation, scaling, projection) applied to the nodes, whatever the curved cell is; for a cell that is the affine image of the reference cell, the points are the images of the points given; a Gauss point given on a reference node is computed exactly at the node of the cell of the same rank; the derivatives returned are the partial derivatives of the shape functions and sum to 0; for the pyramids with 5 nodes those at the apex are the ones of the axis. A localization given again for a type replaces the former one and leaves the cells of the other types where they were. Type without localization is refused. Exceptions: first reference cell of NORM_TRI6, several points on NORM_POINT1, apex of the pyramids with 13 nodes.", "quantifier": "all 40 reference cells of the 19 types, all Gauss points of the space, all cells in a space of any dimension, all affine maps, over any ordered field (derivatives over the reals)", "why_tests_cant": "338 shape functions and 926 derivatives are written by hand; a test evaluates some of them at some points, equality of functions at all points needs an identity of polynomials or rational fractions", "anchors": ["src/INTERP_KERNEL/GaussPoints/InterpKernelGaussCoords.cxx: GaussInfo::initLocalInfo, all ...Init functions, isSatisfy; GaussCoords::addGaussInfo, calculateCoords, calculateCoordsAlg, getInfoGivenCellType"]}
{"id": "C97", "title": "Reference cells: inside test, barycenter, default nodes, bringing a point back, and conversion to linear cells", "statement": "For every reference cell known: a point is said to be inside for every positive tolerance if and only if it is in the convex hull of the nodes of the reference cell (for pyramids, among the points which are not under the base); the barycenter is the mean of the corners (except the first triangle); the default nodes of a type are accepted as reference cell of this type; bringing a point back gives a point of the cell, does not move the points of the cell, and gives the closest point of the cell for segments, quadrangles, hexahedra and, on two sides, triangles. Coordinates given in another dimension keep the first coordinates of each point and are completed with 0. The conversion of a quadratic reference cell gives a reference cell of the linear type of the cell model, whose nodes are the first nodes of the quadratic one, with the same Gauss points; and for cells whose mid-nodes are where the linear cell has them, the computed points are the same before and after the conversion.", "quantifier": "all reference cells of all 19 types, all points, all positive tolerances, all sets of Gauss points and all straight-sided cells in a space of any dimension, over any ordered field", "why_tests_cant": "the claims are about all points of the space (being in a convex hull, being the closest of infinitely many points) and about all straight-sided cells; tests evaluate some points", "anchors": ["src/INTERP_KERNEL/GaussPoints/InterpKernelGaussCoords.cxx: GaussInfo::GetDefaultReferenceCoordinatesOf, GetReferenceCoordinatesOfBarycenterOf, IsInOrOutForReference, AdapatCoorForReference, NormalizeCoordinatesIfNecessary, convertToLinear, IsSatisfy"]}
{"id": "C98", "title": "Measure of cells: lengths, areas and volumes", "statement": "The field of measures has one value for each cell, the measure of the cell or its absolute value, and the measures of a part are those of the field. When the nodes are moved by an affine map the measure of a cell whose dimension is that of the space is multiplied by the determinant (polyhedra: when the faces make a closed surface); for surfaces and curves of the space, maps which multiply lengths by k multiply areas by the square of k and lengths by k. Inverting the orientation of a cell changes the sign of its measure, and keeps it for surfaces of the space. The area of a polygon of the plane is given by the sum over its edges whatever its shape, does not depend on the first node, adds when the polygon is cut along a diagonal, and is that of the triangle or quadrangle on the same nodes. A cell of the space has the volume of the polyhedron made by its faces (prisms and hexahedra: plane faces, otherwise the mean of the two ways of cutting the faces). Volumes of polyhedra do not depend on the order of the faces and add when two polyhedra are glued along a plane face.", "quantifier": "all meshes, all coordinates, all cells of the linear types (and quadratic ones where straight), all affine maps, all polygons and polyhedra with any number of nodes and faces, over any ordered field", "why_tests_cant": "identities between polynomials in up to 24 coordinates and sums over any number of nodes and faces; tests evaluate some shapes, most of them boxes", "anchors": ["src/INTERP_KERNEL/VolSurfFormulae.hxx: calculateLgthForSeg2, calculateAreaForTria, calculateAreaForQuad, calculateAreaForPolyg, calculateAreaForQPolyg, calculateVolumeForTetra, calculateVolumeForPyra, calculateVolumeForPenta, calculateVolumeForHexa, calculateVolumeForPolyh2, calculateBarycenterDyn", "src/INTERP_KERNEL/VolSurfUser.txx: computeVolSurfOfCell, computeVolSurfOfCell2", "src/MEDCoupling/MEDCouplingUMesh.cxx: getMeasureField, getPartMeasureField"]}
{"id": "C99", "title": "Cells cut in simplices, or turned into polygons and polyhedra", "statement": "simplexize replaces each quadrangle (policies 0 and 1) or hexahedron (policies 5 and 6), at its place, by its simplices, leaves every other cell, and returns for each new cell the number of its old cell; nodes, dimension and the nodes in use do not change, the set of geometric types is updated. The measures of the new cells which come from an old cell add up to the measure of that cell: quadrangles of the plane for both diagonals, quadrangles of the space for the second one, hexahedra with plane faces (otherwise the difference is half the signed volumes of the tetrahedra on the faces); the tetrahedra of a parallelepiped all have its orientation. convertToPolyTypes turns the cells asked for into polygons on the same nodes, or polyhedra made of their faces, leaves the others, and does not change the field of measures (linear cells, prisms and hexahedra with plane faces); an invalid number throws.", "quantifier": "all meshes with any number of cells of any types, all coordinates, all lists of cell numbers (repeated or not, valid or not), all policies", "why_tests_cant": "polynomial identities in up to 24 coordinates, meshes mixing any cells; tests use boxes, for which wrong tables of tetrahedra can give the right volume", "anchors": ["src/MEDCoupling/MEDCouplingUMesh.cxx: simplexize, convertToPolyTypes, convertAllToPoly", "src/MEDCoupling/MEDCouplingUMesh_internal.cxx: simplexizePol0, simplexizePol1, simplexizePlanarFace5, simplexizePlanarFace6", "src/INTERP_KERNEL/SplitterTetra.hxx: SPLIT_NODES_5_WO, SPLIT_NODES_6_WO"]}
{"id": "C100", "title": "Remapping between two Cartesian grids: the matrix holds the common volumes and the field is conserved", "statement": "For two Cartesian grids of the same dimension (1 to 3), no cell of which is smaller than the precision, the preparation of a P0P0 remapper ends without exception. Every coefficient of the crude matrix is positive and is the volume common to the target cell and the source cell; a coefficient is missing only if the two cells have, along some axis, less than the precision in common. When the coordinates of the two grids are equal or apart by the precision, the matrix is exact; the coefficients of a target cell covered by the source add up to its volume, those of a source cell covered by the target too. Then a transfer with intensive conservation keeps the integral of the field and one with extensive conservation keeps the sum of its values. Grids of different dimensions are refused.", "quantifier": "all grids with any numbers of cells and any coordinates along each axis, all precisions, all fields", "why_tests_cant": "the sweep along an axis has a state (two indices, a flag) for every relative position of two lists of coordinates; tests use a few small grids", "anchors": ["src/INTERP_KERNEL/InterpolationCC.txx: InterpolationCC::interpolateMeshes, fillMatrix", "src/MEDCoupling/MEDCouplingRemapper.cxx: prepareInterpKernelOnlyCC, transfer"]}
{"id": "C101", "title": "Locating points in a mesh finds the cells which contain them", "statement": "getCellsContainingPoints returns for each point, without repetition, exactly the cells whose bounding box is at most at the tolerance of the point and whose test accepts it; eltsIndex delimits the cells of each point. On meshes of the plane made of triangles and strictly convex quadrangles, and on meshes of the space made of convex cells of any type, every cell which contains the point (border included) is returned whatever the non-negative tolerance. With a null tolerance the triangles, convex quadrangles and tetrahedra returned are exactly those which contain the point. With a positive tolerance the triangles accepted are those for which the barycentric coordinates of the point are at least -eps / (2 area). On the line the segments returned are those strictly closer than the tolerance. getCellContainingPoint returns -1 exactly when no cell is found.", "quantifier": "All meshes of dimension 1, 2 or 3 whose node ids are valid, all lists of points, all non-negative tolerances, all orientations of the cells; ordered field arithmetic.", "why_tests_cant": "The answer depends on the positions of the points relative to every face and on the shape of the search tree; tests check a few points, mostly well inside the cells, and cannot show that no cell is ever missed.", "anchors": ["src/INTERP_KERNEL/PointLocatorAlgos.txx: isElementContainsPointAlg2DSimple, isElementContainsPointAlg3D, isElementContainsPoint, decideFromSign", "src/INTERP_KERNEL/InterpolationUtils.hxx: mon_determinant, NormalizeTetrahedrizedPolyhedron, TripleProduct", "src/INTERP_KERNEL/VectorUtils.hxx: isColinear3DPtsRelative", "src/MEDCoupling/MEDCouplingUMesh_internal.hxx: getCellsContainingPointsAlg", "src/MEDCoupling/MEDCouplingUMesh.cxx: getCellContainingPoint, getCellsContainingPoint, getCellsContainingPoints"]}
{"id": "C102", "title": "computeCellCenterOfMass gives the centers of mass of the cells", "statement": "computeCellCenterOfMass gives one tuple per cell, and getPartBarycenterAndOwner the same tuples for the given cells. For TETRA4, PYRA5, PENTA6, HEXA8, HEXGP12 and polyhedra with plane faces which are not degenerate it is the center of mass of the solid: the volume times the center is the sum of the volumes times the centers of the tetrahedra seen from any point. So it does not depend on the order of the faces, follows the affine maps, is in every half-space which contains the cell when the cell is seen as a whole from a point, and when a polyhedron is cut in two the volumes times the centers add. For segments, triangles and tetrahedra it is the mean of the nodes. For quadrangles and polygons of the plane of nonzero area it is the center of mass; it does not depend on the first node nor on the orientation, follows the affine maps, is in the half-planes which contain the polygon, and adds when the polygon is cut by a diagonal. For plane polygons of the space, and for the vertices of quadratic cells of dimension 2, it is the center of mass as well. computeIsoBarycenterOfNodesPerCell gives the mean of the nodes, each distinct node of a polyhedron being counted once, and throws exactly if a node is not in the mesh or a cell has no node; it is the center of mass for segments, triangles and tetrahedra. The other types are refused.", "quantifier": "all coordinates in an ordered field with a square root, all cells of the given types, all polyhedra whose faces make a closed surface, all affine maps, half-spaces, meshes and lists of cells", "why_tests_cant": "The tests check the centers of a few boxes and polygons; the formulas sum terms over edges after projections of each face on coordinate planes and only the sum over a closed surface is meaningful, which depends on every face, every number of nodes and every orientation.", "anchors": ["src/INTERP_KERNEL/VolSurfFormulae.hxx: barycenterOfPolyhedron, computePolygonBarycenter2D, computePolygonBarycenter3D, integrationOverA3DLine", "src/INTERP_KERNEL/VolSurfUser.txx: computeBarycenter, computeBarycenter2", "src/MEDCoupling/MEDCouplingUMesh.cxx: computeCellCenterOfMass, computeIsoBarycenterOfNodesPerCell, getPartBarycenterAndOwner"]}
{"id": "C103", "title": "Merging nodes joins nodes within the precision and no others", "statement": "findCommonTuples gives groups: a group is a tuple with all the other tuples from the limit on which differ from it by at most the precision on each component; a tuple starts a group exactly when there are such tuples and it is in no group started before it. The numbering made from the groups (buildPermArrayForMergeNode) keeps the tuples which are in no group of another one, in their order; any two kept tuples of which the second is from the limit on are further apart than the precision, each other tuple gets the number of the last of the kept tuples within the precision of it, the tuples before the limit keep their numbers, and nodes are said to be merged exactly when a tuple from the limit on is close to a tuple before it. When closeness is transitive on the tuples, two tuples get the same number exactly when they are close. mergeNodes keeps the types of the cells and renumbers their nodes; each new node is at the place of the last of the old nodes it stands for, an old node moves by at most twice the precision, by at most the precision when closeness is transitive, and merging again then changes nothing; without close nodes nothing changes. mergeNodesCenter does the same with the mean of the old nodes. getDifferentValues gives the tuples of mergeNodes. computeTupleIdsNearTuples gives for each tuple all the tuples within the precision. areIncludedInMe returns true exactly when each tuple of the other array is within the precision of one of the array, and then gives such ids. tryToShareSameCoordsPermute succeeds exactly when the mesh has a node and each of its nodes is within the precision of a node of the other mesh (which has a node), and replaces each by such a node. For integers the groups are those of equal tuples.", "quantifier": "all arrays of 1 to 4 components over an ordered field (1 to 3 for computeTupleIdsNearTuples), all precisions of any sign, all limits, all meshes whose nodes are in the coordinates", "why_tests_cant": "The tests merge a few nodes in clear clusters with tiny precisions. Which node stands for which depends on all the pairs within the precision, on their order and on overlapping groups when closeness is not transitive.", "anchors": ["src/MEDCoupling/MEDCouplingMemArray.cxx: DataArrayDouble::findCommonTuples, findCommonTuplesAlg, computeTupleIdsNearTuples, areIncludedInMe, getDifferentValues", "src/MEDCoupling/MEDCouplingMemArray.txx: DataArrayDiscrete::findCommonTuples, ConvertIndexArrayToO2N", "src/MEDCoupling/MEDCouplingPointSet.cxx: buildPermArrayForMergeNode, findCommonNodes, buildNewNumberingFromCommonNodesFormat, renumberNodes, renumberNodesCenter, mergeNodes, mergeNodesCenter, tryToShareSameCoordsPermute"]}
{"id": "C104", "title": "Skyline arrays: operations on packs act as on lists of lists", "statement": "A MEDCouplingSkyLineArray with three levels stands for a list of super packs, each a list of packs; with two levels for a list of packs. pushBackPack adds a pack at the end of a super pack, deletePack removes a pack, replacePack replaces it, and the other packs and super packs stay as they are, for any history of such calls. getSimplePackSafe, replaceSimplePack and deleteSimplePack read, replace and remove the pack of a number (an empty pack cannot be removed by deleteSimplePack: it throws); deleteSimplePacks removes the packs whose number is given, with repetitions and in any order. replaceSimplePacks gives to each pack its values or the new ones, each value once and ascending. thresholdPerPack keeps, per pack, the values below the threshold on one side and the others on the other side, in their order. uniqueNotSortedByPack gives the values of each pack once. groupPacks joins the packs between consecutive ids. AggregatePacks joins the packs of same number of several arrays. findPackIds gives for each super pack the position of the first pack equal to the one searched for, or -1. convertToPolyhedronConn writes each super pack as a polyhedron whose faces are the packs, BuildFromPolyhedronConn reads such a connectivity, each is the inverse of the other, and other types of cells are refused. The methods on super packs throw on an array with two levels.", "quantifier": "all arrays standing for any lists of packs or super packs (also empty), all numbers of existing packs, all new packs of any size, all histories of calls, whatever the content of the memory given by the allocations", "why_tests_cant": "The tests do a few calls on one or two small arrays. The three arrays are moved in place with offsets which depend on all the sizes of packs before and after the one touched, on whether it grows or shrinks, and on the calls made before.", "anchors": ["src/MEDCoupling/MEDCouplingSkyLineArray.cxx: BuildFromPolyhedronConn, convertToPolyhedronConn, thresholdPerPack, groupPacks, uniqueNotSortedByPack, AggregatePacks, getSimplePackSafe, findPackIds, deletePack, deleteSimplePack, replaceSimplePacks, deleteSimplePacks, pushBackPack, replaceSimplePack, replacePack, checkSuperIndex, validSuperIndex, validIndex, validSuperIndexAndIndex"]}
{"id": "C105", "title": "Degenerated cells, polygons and polyhedra are turned into the usual cells they are", "statement": "On a mesh of dimension 2, convertDegeneratedCells removes from each cell the sides reduced to a point and keeps the other sides, with their middles, in order; a changed cell has the usual type of its number of nodes, or is a polygon, linear or quadratic as before. convertDegeneratedCellsAndRemoveFlatOnes also removes the cells without surface and returns their numbers. A cell of dimension 3 with different nodes is left; if the faces which remain without repeated nodes are those of a tetrahedron, a pyramid, a pentahedron, a hexahedron or a hexagonal prism, it becomes this cell, with these faces. unPolyze leaves the cells of static types, gives to polygons of three or four nodes (six or eight for the quadratic ones) the usual type, and turns a polyhedron whose faces are, in any order and beginning at any node, those of a usual cell into a cell of this type with exactly these faces, in this orientation; any other polyhedron stays or becomes a usual cell with the same nodes, each once. unPolyze returns true if and only if the type of a cell has changed. convertToPolyTypes of any cells followed by unPolyze gives the mesh back. removeDegenerated1DCells removes the segments with equal ends and returns true if and only if there is one. The order of the cells, the nodes and the dimension do not change, and the types are kept up to date; on meshes of dimension at most 1 the conversions throw and unPolyze does nothing.", "quantifier": "all meshes of any number of cells, all numbers of nodes, all repetitions of nodes in the cells of dimension 2 (polygons of any size), all orders and first nodes of the faces of polyhedra", "why_tests_cant": "The tests convert a few cells. A hexahedron alone has 6!*4^6 ways to be written as a polyhedron, and the code looks for a base, an opposite face and a side face by their place in the array, then turns the opposite face with offsets; the cells are rewritten in the array being read.", "anchors": ["src/INTERP_KERNEL/InterpKernelCellSimplify.cxx: simplifyDegeneratedCell, tryToUnPoly2D, getFullPolyh3DCell, tryToUnPoly3D, orientOppositeFace, tryToArrangeOppositeFace, tryToUnPolyHex8, tryToUnPolyHexp12, tryToUnPolyPenta6, tryToUnPolyPyra5, tryToUnPolyTetra4, isFlatCell", "src/MEDCoupling/MEDCouplingUMesh.cxx: convertDegeneratedCells, convertDegeneratedCellsAndRemoveFlatOnes, unPolyze, removeDegenerated1DCells"]}
{"id": "C106", "title": "The time definition of a field over time gives the fields, meshes and arrays at each time", "statement": "MEDCouplingFieldOverTime.getDefinitionTimeZone accepts fields when each one does not end before its start, has one array on an instant (with two times equal up to its tolerance) or on an interval and two arrays if it is linear in time, and when each one begins and ends after the one before it, up to the tolerance of the first one; it refuses all others. For at least two fields, getIdsOnTime at a time throws when no field or more than two fields have an interval which, widened by the tolerance, contains it, or when such a field is linear and the time is not at one of its ends; else it gives, in order, the answers of exactly these fields: the place of the mesh among getDifferentMeshes, the place of the array among getDifferentArrays and its number in the field, the array at the start or at the end of a linear field according to the time. getIdsOnTimeLeft and getIdsOnTimeRight give the first and the last one: at the joint of two successive fields, the end of the first and the start of the second. getDifferentMeshes and getDifferentArrays give each pointer once, with the place of the pointers of each field. getHotSpotsTime gives the instants, middles of constant intervals and ends of linear ones, each up to the tolerance; if the fields all last four times the tolerance, it ascends strictly and getIdsOnTime answers at each of its times. isEqual compares kinds, ids and times up to the tolerance of this. getTinySerializationInformation followed by unserialize gives the same definition.", "quantifier": "all lists of fields of any kinds, times and tolerances (times in any ordered field), all times asked, all meshes and arrays shared or not between fields", "why_tests_cant": "The tests build a few definitions with contiguous fields and ask a few times. The answers depend on the tolerance, on which intervals touch, and on strict or large comparisons in five functions.", "anchors": ["src/MEDCoupling/MEDCouplingDefinitionTime.cxx: MEDCouplingDefinitionTime, MEDCouplingDefinitionTimeSlice, MEDCouplingDefinitionTimeSliceInst, MEDCouplingDefinitionTimeSliceCstOnTI, MEDCouplingDefinitionTimeSliceLT", "src/MEDCoupling/MEDCouplingMultiFields.cxx: getDifferentMeshes, getDifferentArrays", "src/MEDCoupling/MEDCouplingFieldOverTime.cxx: getDefinitionTimeZone"]}
{"id": "C107", "title": "Units of measure are interpreted as the arithmetic of their text, and conversions keep the quantity", "statement": "A Unit built from a text is interpreted when the text is an expression of names, whole numbers, signs, brackets and of the operators *, / and ^, where the names are the 29 units of the table or one of its 22 prefixes followed by one of these units, the exponents are dimensionless whole numbers, and no divisor has the factor 0; its exponents on gram, metre, second, ampere and kelvin and its factor are those which the arithmetic of the text gives, whatever the amounts of the base units; every other expression is refused (sums, functions, comparisons, unknown names, decimal numbers). No prefixed name is taken for another unit, and no unknown name is accepted. isCompatibleWith tells true exactly when both texts are interpreted with the same exponents. For compatible units convert gives the number which is worth the same quantity, temperatures in degrees Celsius included; converting there and back gives the number again, and converting through a third unit changes nothing. For the others convert gives the largest double.", "quantifier": "all texts written with the grammar of the expressions (any nesting, spaces, signs), all names, all values; exact arithmetic", "why_tests_cant": "The tests interpret about thirty texts and convert a handful of values. The recognition tries all ends of a name, so any pair of prefix and unit may collide with another unit, and the value of an expression depends on how operators, signs and brackets nest.", "anchors": ["src/INTERP_KERNEL/ExprEval/InterpKernelUnit.cxx: UnitDataBase::getInfoForUnit, DecompositionInUnitBase, Unit::tryToInterprate, Unit::isCompatibleWith, Unit::convert", "src/INTERP_KERNEL/ExprEval/InterpKernelValue.cxx: ValueUnit", "src/INTERP_KERNEL/ExprEval/InterpKernelExprParser.cxx: evaluateUnit, evaluateLowLev"]}
{"id": "C108", "title": "Dense matrices follow the rules of matrix algebra", "statement": "DenseMatrix.New accepts an array exactly when it has one component and as many values as the number of rows times the number of columns; reBuild does the same, with the present number of rows or columns in place of -1; reShape keeps the values and throws exactly when their number would change. Add, Substract, addEqual and substractEqual give the sum and the difference and throw on different shapes. Multiply of matrices, Multiply by an array and matVecMult give the products and throw when the sizes do not match. transpose gives the transposed matrix. As objects: transposing twice or adding then subtracting gives the matrix again, products are associative and distribute over sums, and the transposed product is the product of the transposed matrices the other way round.", "quantifier": "all matrices of any size with coefficients in any commutative ring, all arrays, all requested shapes", "why_tests_cant": "The tests multiply and transpose two small matrices. The layout of rows and the indices of four loops must agree for every shape, square or not.", "anchors": ["src/MEDCoupling/MEDCouplingMatrix.cxx: DenseMatrix", "src/INTERP_KERNEL/InterpKernelMatrixTools.cxx: matrixProduct", "src/MEDCoupling/MEDCouplingMemArray.txx: toNoInterlace"]}
{"id": "C109", "title": "The inverse of a matrix is its inverse, and is found exactly when there is one", "statement": "For a square matrix of at least one row, held row after row, inverseMatrix writes the inverse whenever the determinant is not 0: the product with the matrix, on the left as on the right, is the identity, whatever interchanges of rows the pivots ask for. Inverting twice gives the array back. When the determinant is 0 a division by 0 is made, always, and no exception is raised.", "quantifier": "all square matrices of any order with coefficients in any ordered field (exact arithmetic)", "why_tests_cant": "The test inverts one matrix of order 10. The factors, the pivots and the inverse share the same array, and which cells hold what depends on the step and on the interchanges made before; no finite set of matrices goes through all the orders of pivots.", "anchors": ["src/INTERP_KERNEL/InterpKernelMatrixTools.cxx: inverseMatrix, dgefa, dgedi, idamax, dscal, daxpy, dswap"]}
{"id": "C110", "title": "Kriging goes through the values of the nodes and reproduces linear fields", "statement": "For a field on nodes of kind KRIGING, whenever getValueOnMulti answers: at a point which is a node of the mesh the value of this node is found, for every component; a component that depends linearly on the coordinates is given back exactly at every point, inside or outside the mesh; the values at a point are the combination, by the coefficients of computeVectorOfCoefficients, of the kernel of the distances to the nodes, of 1 and of the coordinates. It answers exactly when the matrix of computeMatrix, symmetric and made of the kernel of the distances bordered by 1 and the coordinates, has a determinant different from 0. It throws without array, with a number of tuples different from the number of nodes and in dimensions other than 1, 2 and 3.", "quantifier": "all meshes of any number of nodes, all fields of any number of components, all points, in any ordered field, for any functions sqrt and log with sqrt 0 = 0 (exact arithmetic)", "why_tests_cant": "The tests compare values at chosen points of two meshes up to a tolerance. The distances to the nodes are computed by two different functions, the bordered matrix is written by one and its rows at points by another, and all must agree for every mesh.", "anchors": ["src/MEDCoupling/MEDCouplingFieldDiscretization.cxx: MEDCouplingFieldDiscretizationKriging", "src/MEDCoupling/MEDCouplingMemArray.cxx: DataArrayDouble::buildEuclidianDistanceDenseMatrix, buildEuclidianDistanceDenseMatrixWith", "src/INTERP_KERNEL/InterpKernelMatrixTools.cxx: inverseMatrix, matrixProduct"]}
{"id": "C111", "title": "The equation of the plane of a face holds at its points, and exists unless the face is parallel to (1, 1, 1)", "statement": "For a face in space, computePlaneEquationOf3DFaces gives four coefficients a, b, c, d with a + b + c = 1 such that a x + b y + c z + d = 0 at its two first nodes and at the third one, hence at every point of their plane; when the three first nodes are nearly on a line (the norm of the vector product of the two first directions is at most a thousandth of the product of their norms) the mean of all the nodes takes the place of the third. When they are not, it answers exactly when the coordinates of the normal have a sum different from 0; for every such face whose plane is parallel to the direction (1, 1, 1) there is a division by 0. It throws on a face of fewer than three nodes and on a triangle whose nodes are nearly on a line, and never answers when one of the three first nodes does not exist.", "quantifier": "all faces with any number of nodes, all coordinates in any ordered field, any function sqrt (exact arithmetic)", "why_tests_cant": "The test looks at the faces of one mesh. The planes for which the method fails are exceptional: random or usual faces do not show them, and only a proof shows that there is no other one.", "anchors": ["src/MEDCoupling/MEDCouplingUMesh.cxx: MEDCouplingUMesh::computePlaneEquationOf3DFaces", "src/INTERP_KERNEL/InterpKernelMatrixTools.cxx: inverseMatrix"]}
