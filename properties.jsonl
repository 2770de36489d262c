{"id": "C01", "title": "Matrix element store: read-over-write", "statement": "After a successful set_elem(v,r,c,s) the matrix has the same dimensions, get_elem(r,c,s) returns v, and get_elem at every other coordinate returns what it returned before.", "quantifier": "every well-formed matrix of any dimensions, every value, every pair of integer coordinates", "why_tests_cant": "needs that the row-major offset is injective and in range for every dimension triple; tests try a handful of 3x3 cases", "anchors": ["src/libcatnip/matrix.cpp:Matrix::index", "src/libcatnip/matrix.cpp:Matrix::set_elem", "src/libcatnip/matrix.cpp:Matrix::get_elem"]}
{"id": "C02", "title": "Matrix element access is memory safe and rejects exactly the out-of-range coordinates", "statement": "For a well-formed matrix, get_elem and set_elem with 1, 2 or 3 coordinates end the process with exit status 1 exactly when a coordinate is below 1 or above the corresponding dimension, and otherwise complete; they never touch memory outside the buffer.", "quantifier": "every well-formed matrix and every integer coordinate tuple, including zero and negative ones", "why_tests_cant": "an out-of-range read can silently return neighbouring memory; no finite set of coordinates excludes it", "anchors": ["src/libcatnip/matrix.cpp:Matrix::get_elem", "src/libcatnip/matrix.cpp:Matrix::set_elem", "src/libcatnip/matrix.cpp:Matrix::index"]}
{"id": "C03", "title": "Matrix behaves like a coordinate-to-value map over any history", "statement": "Start from a freshly constructed r x c x s matrix and apply any sequence of accepted set_elem calls: get_elem returns the most recent value written at that coordinate, or 0 if it was never written.", "quantifier": "every size and every finite history of writes", "why_tests_cant": "quantifies over unbounded operation histories", "anchors": ["src/libcatnip/matrix.cpp:Matrix::Matrix", "src/libcatnip/matrix.cpp:Matrix::set_elem", "src/libcatnip/matrix.cpp:Matrix::get_elem"]}
{"id": "C04", "title": "Constructors build what they are given", "statement": "Matrix(r,c) and Matrix(r,c,s) give an all-zero matrix of these dimensions or exit(1) when a dimension is below 1; Matrix(n) gives an n x 1 zero matrix (or the empty matrix for 0, or exit(1) below 0); Matrix(vector) is the column holding the vector; Matrix(vector<vector>) holds row i, column j of the nested vector, throws out_of_range on an empty outer vector and invalid_argument when rows differ in length.", "quantifier": "every dimension and every (ragged or rectangular) nested vector", "why_tests_cant": "ragged inputs and sizes are unbounded", "anchors": ["src/libcatnip/matrix.cpp:Matrix::Matrix"]}
{"id": "C05", "title": "resize keeps the common part and zero-fills the rest", "statement": "After resize(r,c) with r,c >= 1 the matrix is r x c x 1; entry (i,j) is the old entry when (i,j) existed before and 0 otherwise; resize with a smaller argument than 1 exits with status 1.", "quantifier": "every single-shelf matrix and every target size, growing or shrinking independently in each direction", "why_tests_cant": "four code paths times unbounded sizes; a stride mix-up shows only for some shapes", "anchors": ["src/libcatnip/matrix.cpp:Matrix::resize"]}
{"id": "C06", "title": "Assignment reproduces the right-hand side", "statement": "After a = b with b a non-empty single-shelf matrix, a has b's dimensions and elements, whatever a held before.", "quantifier": "every pair of matrices, every previous content and shape of the left-hand side", "why_tests_cant": "depends on both shapes", "anchors": ["src/libcatnip/matrix.cpp:Matrix::operator="]}
{"id": "C07", "title": "Copies are independent of the original", "statement": "Writing to a copy of a matrix leaves the original unchanged, and resizing a copy leaves the original readable.", "quantifier": "every matrix, every way of copying the API offers (copy construction, operator=, Matrix_copy), every later write", "why_tests_cant": "aliasing is invisible until a later write through the other name", "anchors": ["src/libcatnip/matrix.hpp:Matrix", "src/libcatnip/matrix.cpp:Matrix::operator=", "src/libcatnip/matrix.cpp:Matrix_copy", "src/libcatnip/matrix.cpp:Matrix::resize"]}
{"id": "C08", "title": "Matrix_copy reproduces all shelves", "statement": "Matrix_copy(m) has the dimensions of m and the same element at every row, column and shelf.", "quantifier": "every well-formed matrix with positive dimensions", "why_tests_cant": "three nested loops over unbounded dimensions", "anchors": ["src/libcatnip/matrix.cpp:Matrix_copy"]}
{"id": "C09", "title": "invert is transposition and an involution", "statement": "For a single-shelf matrix m with positive dimensions, m.invert() has get_cols x get_rows elements with entry (j,i) equal to m(i,j), and m.invert().invert() has the same dimensions and elements as m; a matrix with another number of shelves makes the process exit with status 1.", "quantifier": "every matrix size and content", "why_tests_cant": "shape dependent", "anchors": ["src/libcatnip/matrix.cpp:Matrix::invert"]}
{"id": "C10", "title": "Matrix product is the mathematical product", "statement": "For conforming single-shelf operands A*B has A.rows x B.cols entries, entry (i,j) being the sum over k of A(i,k)B(k,j); non-conforming or multi-shelf operands end the process with status 1. In exact arithmetic the product is associative and invert(A*B) = invert(B)*invert(A).", "quantifier": "all matrices of all conforming and non-conforming shapes over any commutative ring", "why_tests_cant": "accumulation loop over unbounded inner dimension", "anchors": ["src/libcatnip/matrix.cpp:operator*", "src/libcatnip/matrix.cpp:Matrix::invert"]}
{"id": "C11", "title": "Row and column concatenation", "statement": "Matrix_concatenate_rows(A,B) stacks B below A and Matrix_concatenate_cols(A,B) places B right of A, preserving every element on every shelf; when the shared dimension or the number of shelves differs the result is the 1 x 1 zero matrix.", "quantifier": "all pairs of matrices", "why_tests_cant": "offset arithmetic over unbounded shapes", "anchors": ["src/libcatnip/matrix.cpp:Matrix_concatenate_rows", "src/libcatnip/matrix.cpp:Matrix_concatenate_cols"]}
{"id": "C12", "title": "Matrix_diag puts a vector on the diagonal", "statement": "For a row or column vector of length n, Matrix_diag gives the n x n matrix with entry (i,i) the i-th vector entry and 0 elsewhere; anything with more than one row and more than one column, or several shelves, is rejected with invalid_argument.", "quantifier": "all matrices", "why_tests_cant": "size dependent; orientation handled by separate branches", "anchors": ["src/libcatnip/matrix.cpp:Matrix_diag"]}
{"id": "C13", "title": "set_row / get_row round trip", "statement": "set_row(v,r) with 1 <= r <= rows and v of length cols makes get_row(r) return v and leaves every other row unchanged; a vector of another length is rejected with invalid_argument and nothing is written.", "quantifier": "every single-shelf matrix, row and vector", "why_tests_cant": "sizes unbounded", "anchors": ["src/libcatnip/matrix.cpp:Matrix::set_row", "src/libcatnip/matrix.cpp:Matrix::get_row"]}
{"id": "C14", "title": "set_col / get_col round trip", "statement": "set_col(v,c) with 1 <= c <= cols and v of length rows makes get_col(c) return v and leaves every other column unchanged; a vector of another length is rejected with invalid_argument.", "quantifier": "every single-shelf matrix, column and vector", "why_tests_cant": "the existing test only uses a square matrix; the property is about all shapes", "anchors": ["src/libcatnip/matrix.cpp:Matrix::set_col", "src/libcatnip/matrix.cpp:Matrix::get_col"]}
{"id": "C15", "title": "swap_row and swap_col exchange exactly two lines and are involutions", "statement": "swap_row(a,b) exchanges rows a and b, leaves all others unchanged, and applying it twice restores the matrix; likewise swap_col(a,b).", "quantifier": "every single-shelf matrix and every pair of valid row / column numbers", "why_tests_cant": "all shapes and all pairs", "anchors": ["src/libcatnip/matrix.cpp:Matrix::swap_row", "src/libcatnip/matrix.cpp:Matrix::swap_col"]}
{"id": "C16", "title": "move_row shifts the rows in between and is undone by the reverse move", "statement": "move_row(a,b) puts old row a at position b, shifts the rows strictly between towards a by one and leaves the rest unchanged; move_row(b,a) afterwards restores the matrix.", "quantifier": "every single-shelf matrix and valid a, b in either order", "why_tests_cant": "in-place overlapping copies are order sensitive at every distance", "anchors": ["src/libcatnip/matrix.cpp:Matrix::move_row"]}
{"id": "C17", "title": "set_rows changes the number of rows without losing the rows that remain", "statement": "After set_rows(r) the matrix has r rows; rows that existed before and still exist are unchanged; new rows are 0.", "quantifier": "every matrix and every r >= 0", "why_tests_cant": "test only prints the result", "anchors": ["src/libcatnip/matrix.cpp:Matrix::set_rows"]}
{"id": "C18", "title": "set_cols changes the number of columns without losing the columns that remain", "statement": "After set_cols(c) the matrix has c columns; columns that existed before and still exist are unchanged; new columns are 0; no memory outside the buffers is touched.", "quantifier": "every matrix and every c >= 0", "why_tests_cant": "memory errors depend on the shape; tests only print a 1-row matrix", "anchors": ["src/libcatnip/matrix.cpp:Matrix::set_cols"]}
{"id": "C19", "title": "set_shel changes the number of shelves without losing the shelves that remain", "statement": "After set_shel(s) the matrix has s shelves; shelves that existed before and still exist are unchanged; new shelves are 0; no memory outside the buffers is touched.", "quantifier": "every matrix and every s >= 0", "why_tests_cant": "memory errors depend on the shape; tests only print a 1 x 1 matrix", "anchors": ["src/libcatnip/matrix.cpp:Matrix::set_shel"]}
{"id": "C20", "title": "getRow extracts a row", "statement": "getRow(R) with 1 <= R <= rows gives the 1 x cols x shel matrix holding row R; any other R makes the process exit with status 1.", "quantifier": "every matrix with positive dimensions and every integer R", "why_tests_cant": "used to pick the molecular orbital, so must hold for every orbital index", "anchors": ["src/libcatnip/matrix.cpp:Matrix::getRow"]}
{"id": "C21", "title": "getCol extracts a column", "statement": "getCol(C) with 1 <= C <= cols gives the rows x 1 x shel matrix holding column C; any other C makes the process exit with status 1.", "quantifier": "every matrix with positive dimensions and every integer C", "why_tests_cant": "the defect depends on the aspect ratio of the matrix", "anchors": ["src/libcatnip/matrix.cpp:Matrix::getCol"]}
{"id": "C22", "title": "matchRow / matchCol report the last matching line, or -1", "statement": "matchCol(mat,sf) returns one entry per column; entry i is the largest column number of mat whose entries all print the same as those of column i when rounded to sf digits, and -1 exactly when there is none; the same for matchRow with rows. A differing number of rows (columns) is rejected with invalid_argument; a matrix with more than one shelf ends the program.", "quantifier": "all pairs of coordinate matrices and any rounding function", "why_tests_cant": "all geometries", "anchors": ["src/libcatnip/matrix.cpp:Matrix::matchRow", "src/libcatnip/matrix.cpp:Matrix::matchCol", "src/libcatnip/matrix.cpp:double_tos"]}
{"id": "C23", "title": "Matching a reordered geometry recovers the ordering", "statement": "If the columns of P print pairwise differently and every column of A prints like column t(i) of P, then A.matchCol(P) is exactly t(1),...,t(n); it has no -1, and it is injective when the columns of A print pairwise differently.", "quantifier": "all geometries and all reorderings", "why_tests_cant": "quantifies over all permutations of all atom counts", "anchors": ["src/libcatnip/matrix.cpp:Matrix::matchCol", "src/libcatnip/qc_functions.cpp:TransferComplex::unscramble"]}
{"id": "C24", "title": "The swap schedule realises the requested rearrangement", "statement": "Given target lists A (positions 1..|A|) and B (positions |A|+1..|A|+|B|) that together name pairwise different source positions, refreshing the swap order and executing the swaps leaves at position i the block that the lists requested for position i.", "quantifier": "every list of blocks and every injective assignment, any length", "why_tests_cant": "the schedule is order sensitive; the failing cases are long cycles crossing the A/B boundary", "anchors": ["src/libcatnip/qc_functions.cpp:refreshSwapOrder", "src/libcatnip/qc_functions.cpp:updateSwapLists"]}
{"id": "C25", "title": "Swap scheduling terminates", "statement": "Computing the swap order finishes for every pair of match lists.", "quantifier": "every pair of match lists, including lists in which two atoms matched the same dimer atom or none", "why_tests_cant": "non-termination only on degenerate geometries", "anchors": ["src/libcatnip/qc_functions.cpp:refreshSwapOrder"]}
{"id": "C26", "title": "Unmatched atoms are reported as an error", "statement": "If some monomer atom has no counterpart in the dimer (match -1), unscrambling fails with a reported error instead of accessing memory it does not own.", "quantifier": "every match list containing -1 or an index beyond the number of atoms", "why_tests_cant": "undefined behaviour may look like success in a test", "anchors": ["src/libcatnip/qc_functions.cpp:updateSwapLists", "src/libcatnip/qc_functions.cpp:unscramble_Coef", "src/libcatnip/qc_functions.cpp:TransferComplex::unscramble"]}
{"id": "C27", "title": "Splitting by atoms and merging back is the identity", "statement": "Splitting a matrix into column (row) blocks with positive sizes that add up to its width (height) and merging the list back yields a matrix with the same dimensions and elements.", "quantifier": "every matrix and every composition of its width / height", "why_tests_cant": "all block structures", "anchors": ["src/libcatnip/qc_functions.cpp:splitMatrixIntoList", "src/libcatnip/qc_functions.cpp:mergeListOfMatrices"]}
{"id": "C28", "title": "Splitting rejects impossible block structures", "statement": "Splitting terminates the process with status 1 when some block size is below 1 or the sizes exceed the width (height); an unknown direction string is rejected with invalid_argument.", "quantifier": "every matrix, block size list and direction string", "why_tests_cant": "all block structures", "anchors": ["src/libcatnip/qc_functions.cpp:splitMatrixIntoList", "src/libcatnip/qc_functions.cpp:mergeListOfMatrices"]}
{"id": "C29", "title": "unscramble_Coef permutes whole atom blocks of columns", "statement": "For injective in-range matches, the columns of the result are, in order, the column blocks of the dimer atoms named by the match for A then B (then for a complete match nothing else); no coefficient is changed, lost or duplicated.", "quantifier": "every coefficient matrix, every vector of basis-function counts adding up to its width and every atom permutation", "why_tests_cant": "blocks have different widths, so offsets change with the permutation", "anchors": ["src/libcatnip/qc_functions.cpp:unscramble_Coef", "src/libcatnip/qc_functions.cpp:splitMatrixIntoList", "src/libcatnip/qc_functions.cpp:refreshSwapOrder", "src/libcatnip/qc_functions.cpp:updateSwapLists", "src/libcatnip/qc_functions.cpp:mergeListOfMatrices"]}
{"id": "C30", "title": "unscramble_S applies one permutation to rows and columns", "statement": "unscramble_S(match,basis,S)(i,j) = S(p(i),p(j)) for the same basis-function permutation p that unscramble_Coef applies to the columns of the coefficients; a symmetric S stays symmetric.", "quantifier": "every square overlap matrix, basis count vector and atom permutation", "why_tests_cant": "as above, in both directions", "anchors": ["src/libcatnip/qc_functions.cpp:unscramble_S"]}
{"id": "C31", "title": "Unscrambling undoes any reordering of the dimer's atoms", "statement": "If the dimer's coefficients and overlap are a blockwise reordering of matrices aligned with the monomers, unscrambling with the corresponding match returns exactly the aligned matrices, so calcJ gives the same result for every atom order of the dimer.", "quantifier": "every aligned dimer, every atom permutation, any arithmetic (including IEEE doubles)", "why_tests_cant": "factorially many orders", "anchors": ["src/libcatnip/qc_functions.cpp:TransferComplex::unscramble", "src/libcatnip/qc_functions.cpp:unscramble_Coef", "src/libcatnip/qc_functions.cpp:unscramble_S", "src/libcatnip/qc_functions.cpp:TransferComplex::calcJ"]}
{"id": "C32", "title": "calcJ selects the orbital the user named", "statement": "For HOMO with number n <= 0 the coefficients used are row HOMO+n, for LUMO with n >= 0 row HOMO+1+n, independently for each monomer.", "quantifier": "all coefficient matrices, HOMO levels, orbital counts and orbital numbers", "why_tests_cant": "index arithmetic over all levels", "anchors": ["src/libcatnip/qc_functions.cpp:TransferComplex::calcJ"]}
{"id": "C33", "title": "calcJ rejects impossible orbitals", "statement": "calcJ throws invalid_argument when a type is neither HOMO nor LUMO, when a HOMO number is positive or at most -HOMOlevel, or a LUMO number is negative or at least the number of unoccupied orbitals; every accepted request selects a row between 1 and the number of orbitals.", "quantifier": "all orbital types and numbers", "why_tests_cant": "boundary cases for every molecule size", "anchors": ["src/libcatnip/qc_functions.cpp:TransferComplex::calcJ"]}
{"id": "C34", "title": "A constructed TransferComplex is dimensionally usable", "statement": "If the TransferComplex constructor accepts its matrices, calcJ on an existing orbital pair completes rather than terminating the process inside the matrix code; inconsistent dimensions are rejected by the constructor with invalid_argument.", "quantifier": "all combinations of matrix dimensions", "why_tests_cant": "all shape combinations", "anchors": ["src/libcatnip/qc_functions.cpp:TransferComplex::TransferComplex", "src/libcatnip/qc_functions.cpp:calculate_transfer_integral"]}
{"id": "C35", "title": "The transfer integral is the Loewdin-orthogonalised coupling", "statement": "With g_X(m) = sum_{p,q} zeta_X(p) S(p,q) C(m,q), J_ab = sum_m g_B(m) E(m) g_A(m), e_X = sum_m g_X(m)^2 E(m), S_ab = sum_m g_B(m) g_A(m), the value returned is (J_ab - (e_a+e_b) S_ab / 2) / (1 - S_ab^2), where zeta_A is the monomer row padded with zeros on the right and zeta_B on the left (or unpadded with counterpoise).", "quantifier": "all inputs of conforming dimensions with S_ab^2 != 1, in exact arithmetic", "why_tests_cant": "a chain of eleven matrix operations over unbounded dimensions", "anchors": ["src/libcatnip/qc_functions.cpp:calculate_transfer_integral"]}
{"id": "C36", "title": "The coupling is symmetric in the two monomers", "statement": "Exchanging monomer 1 and monomer 2 leaves the transfer integral unchanged.", "quantifier": "all conforming counterpoise inputs; without counterpoise with the dimer's basis blocks exchanged accordingly", "why_tests_cant": "algebraic law", "anchors": ["src/libcatnip/qc_functions.cpp:calculate_transfer_integral"]}
{"id": "C37", "title": "The coupling does not depend on the arbitrary phase of dimer orbitals", "statement": "Multiplying any set of rows of the dimer coefficients by -1 leaves the transfer integral unchanged.", "quantifier": "all inputs, all subsets of dimer orbitals", "why_tests_cant": "exponentially many phase choices", "anchors": ["src/libcatnip/qc_functions.cpp:calculate_transfer_integral"]}
{"id": "C38", "title": "Flipping a monomer orbital's phase flips the sign of the coupling", "statement": "Negating the coefficients of one monomer's orbital negates the transfer integral; negating both leaves it unchanged.", "quantifier": "all inputs", "why_tests_cant": "algebraic law", "anchors": ["src/libcatnip/qc_functions.cpp:calculate_transfer_integral"]}
{"id": "C39", "title": "The coupling is linear in the dimer orbital energies", "statement": "Scaling all dimer orbital energies by k scales the transfer integral by k; adding two energy vectors adds the integrals; a uniform energy shift c changes it by c*S_ab*(1-(n_a+n_b)/2)/(1-S_ab^2) with n_X the squared norms of the projections, hence not at all when these are normalised.", "quantifier": "all inputs in exact arithmetic", "why_tests_cant": "algebraic law", "anchors": ["src/libcatnip/qc_functions.cpp:calculate_transfer_integral"]}
{"id": "C40", "title": "The coupling is invariant under relabelling of basis functions", "statement": "Permuting the basis functions of monomer coefficients, dimer coefficients and overlap consistently leaves the transfer integral unchanged.", "quantifier": "all inputs, all permutations, exact arithmetic", "why_tests_cant": "factorially many permutations", "anchors": ["src/libcatnip/qc_functions.cpp:calculate_transfer_integral"]}
{"id": "C41", "title": "findRank orders all orbital energies", "statement": "findRank(alpha,beta) maps 1..n to the orbital energies of both columns in ascending order, each tagged with its spin, n being the total number of energies.", "quantifier": "all energy columns", "why_tests_cant": "all lengths and orders", "anchors": ["src/libcatnip/qc_functions.cpp:findRank", "src/libcatnip/matrix.cpp:Matrix::getCol"]}
{"id": "C42", "title": "splitSt splits at white space without losing characters", "statement": "The tokens are non-empty and free of white space, their concatenation is the input without its white space, and splitting tokens joined by white space returns the tokens.", "quantifier": "all strings", "why_tests_cant": "all strings", "anchors": ["src/libcatnip/string_support.cpp:splitSt"]}
{"id": "C43", "title": "Path and file name decompose a path", "statement": "getPath(s) followed by lastStringInPath(s) is s; the file name has no separator; the path is empty or ends in a separator.", "quantifier": "all strings", "why_tests_cant": "all strings", "anchors": ["src/libcatnip/string_support.cpp:getPath", "src/libcatnip/string_support.cpp:lastStringInPath"]}
{"id": "C44", "title": "Prefix and suffix helpers", "statement": "For 0 <= n <= size: lastN has length n and cut_end(s,n) followed by lastN(s,n) is s; firstN has length n and firstN(s,n) followed by cut_beg(s,n) is s. For n beyond the size lastN and cut_beg throw out_of_range while firstN and cut_end return the whole string.", "quantifier": "all strings and all integers n", "why_tests_cant": "unsigned wrap-around at the boundary", "anchors": ["src/libcatnip/string_support.cpp:lastN", "src/libcatnip/string_support.cpp:cut_end", "src/libcatnip/string_support.cpp:firstN", "src/libcatnip/string_support.cpp:cut_beg"]}
{"id": "C45", "title": "Trimming removes exactly the surrounding white space", "statement": "trimmed(s) neither starts nor ends with white space, s is white space + trimmed(s) + white space, and trimming is idempotent.", "quantifier": "all strings", "why_tests_cant": "all strings", "anchors": ["src/libcatnip/string_support.cpp:trim", "src/libcatnip/string_support.cpp:trimmed", "src/libcatnip/string_support.cpp:ltrimmed", "src/libcatnip/string_support.cpp:rtrimmed"]}
{"id": "C46", "title": "First-occurrence helpers cut at the first occurrence", "statement": "If occ occurs in s, then before + occ + after = s and no earlier occurrence exists; otherwise before is s and after is empty; foundSubStrInStr holds exactly when s = x + occ + y for some x, y.", "quantifier": "all strings s and occ", "why_tests_cant": "overlapping occurrences", "anchors": ["src/libcatnip/string_support.cpp:grabStrBeforeFirstOccurance", "src/libcatnip/string_support.cpp:grabStrAfterFirstOccurance", "src/libcatnip/string_support.cpp:foundSubStrInStr"]}
{"id": "C47", "title": "Last-occurrence helpers cut at the last occurrence", "statement": "If occ occurs in s, grabStrBeforeLastOccurance + occ + grabStrAfterLastOccurance = s and occ does not occur later; otherwise before is s and after is empty.", "quantifier": "all strings s and occ", "why_tests_cant": "the code searches for a character set, which differs only for longer patterns", "anchors": ["src/libcatnip/string_support.cpp:grabStrBeforeLastOccurance", "src/libcatnip/string_support.cpp:grabStrAfterLastOccurance"]}
{"id": "C48", "title": "Parameters only ever hold files with the right extension", "statement": "In every state reachable by the setters each log file is empty or ends in .log and each pun file is empty or ends in .pun; a setter given anything else throws and leaves the state unchanged; each setter changes only its own field.", "quantifier": "all setter histories", "why_tests_cant": "histories", "anchors": ["src/libcatnip/parameters.cpp:Parameters", "src/libcatnip/parameters.hpp:Parameters"]}
{"id": "C49", "title": "Integer options accept exactly the configured range", "statement": "An integer argument is accepted exactly when MIN <= value <= MAX, with MIN and MAX the last values set (int limits by default).", "quantifier": "all integers and all bounds", "why_tests_cant": "boundaries", "anchors": ["src/libcatnip/io/arguments/properties/propertyint.cpp:PropertyInt", "src/libcatnip/io/arguments/properties/propertyobject.hpp:PropertyObject"]}
{"id": "C50", "title": "Floating point options accept exactly the configured range", "statement": "A double argument is accepted exactly when MIN <= value <= MAX.", "quantifier": "all double values including NaN, all bounds", "why_tests_cant": "NaN compares false with everything", "anchors": ["src/libcatnip/io/arguments/properties/propertydouble.cpp:PropertyDouble"]}
{"id": "C51", "title": "String length option", "statement": "A string argument is accepted exactly when MIN_LENGTH <= length <= MAX_LENGTH (by default always).", "quantifier": "all strings and bounds", "why_tests_cant": "boundaries", "anchors": ["src/libcatnip/io/arguments/properties/propertystring.cpp:PropertyString"]}
{"id": "C52", "title": "String choice option", "statement": "With STRING_CHOICE_ENFORCED true a string is accepted exactly when it is one of STRING_CHOICES; otherwise (unless the argument's setter was given an empty set for it, which is undefined behaviour) every string is accepted.", "quantifier": "all strings and choice sets", "why_tests_cant": "all strings", "anchors": ["src/libcatnip/io/arguments/properties/propertystringchoice.cpp:PropertyStringChoice"]}
{"id": "C53", "title": "Switch option", "statement": "A switch value is accepted exactly when it is one of 0, 1, ON, OFF, TRUE, FALSE, and every accepted value is interpreted as on (1, ON, TRUE) or off (0, OFF, FALSE) without error.", "quantifier": "all strings", "why_tests_cant": "all strings", "anchors": ["src/libcatnip/io/arguments/properties/propertyswitch.cpp:PropertySwitch", "src/libcatnip/io/arguments/argumentswitch.cpp:ArgumentSwitch"]}
{"id": "C54", "title": "File extension option", "statement": "A file argument is accepted exactly when the part of its file name from the last dot on (empty without dot) is one of ALLOWED_FILE_EXT, or ALLOWED_FILE_EXT contains an entry starting with *.", "quantifier": "all paths and extension sets", "why_tests_cant": "dots in directory names, several dots, no dot", "anchors": ["src/libcatnip/io/arguments/properties/propertyfileext.cpp:PropertyFileExt"]}
{"id": "C55", "title": "File existence option reflects the file that was checked last", "statement": "After a file argument has been validated, FILE_DOES_EXIST is 1 exactly when that file exists; with FILE_MUST_EXIST set a missing file is rejected.", "quantifier": "all file systems and all sequences of validated names", "why_tests_cant": "histories: the flag is sticky", "anchors": ["src/libcatnip/io/arguments/properties/propertyfileexist.cpp:PropertyFileExist"]}
{"id": "C56", "title": "Sister files are derived from the argument", "statement": "After validating dir/core.ext, SISTER_FILE_PATH_NAME lists dir/core+e for every configured sister extension e in order and SISTER_FILE_EXISTS says for each whether it exists.", "quantifier": "all paths, extension lists and file systems", "why_tests_cant": "all paths", "anchors": ["src/libcatnip/io/arguments/properties/propertysisterfile.cpp:PropertySisterFile"]}
{"id": "C57", "title": "Options of an argument can only be set to values the property allows", "statement": "Setting an argument's property option to a value the property declares illegal (for example STRING_CHOICE_ENFORCED to something other than true or false, or the internally determined SISTER_FILE_EXISTS) is rejected with invalid_argument.", "quantifier": "all arguments, options and values", "why_tests_cant": "depends on overload / virtual dispatch, silent when wrong", "anchors": ["src/libcatnip/io/arguments/argumentobject.hpp:ArgumentObject::setArgPropertyOpt", "src/libcatnip/io/arguments/properties/propertyobject.hpp:PropertyObject::setPropOption", "src/libcatnip/io/arguments/properties/propertystringchoice.cpp:PropertyStringChoice::setPropOption", "src/libcatnip/io/arguments/properties/propertysisterfile.cpp:PropertySisterFile::setPropOption"]}
{"id": "C58", "title": "Unknown flags are rejected", "statement": "Parsing a command line in which a token in flag position is neither a registered full flag nor a registered abbreviation fails with an exception.", "quantifier": "all parser configurations and command lines", "why_tests_cant": "all command lines", "anchors": ["src/libcatnip/io/argumentparser.cpp:ArgumentParser::parse", "src/libcatnip/io/argumentparser.cpp:ArgumentParser::parseArg_"]}
{"id": "C59", "title": "The last value given for a flag wins, others keep their default", "statement": "After a successful parse, getStr / getInt of a flag returns the last value given for it on the command line, or its default if it was not given.", "quantifier": "all command lines accepted by the calc_J parser, value-taking flags", "why_tests_cant": "histories", "anchors": ["src/libcatnip/io/argumentparser.cpp:ArgumentParser::parseArg_", "src/libcatnip/io/argumentparser.cpp:ArgumentParser::getStr", "src/libcatnip/io/argumentparser.cpp:ArgumentParser::getInt", "src/libcatnip/io/argumentparser.cpp:ArgumentParser::setFlagDefaultValue"]}
{"id": "C60", "title": "Abbreviated and full flags are interchangeable", "statement": "Replacing a full flag by its abbreviation anywhere in flag position does not change the result of parsing.", "quantifier": "all calc_J command lines", "why_tests_cant": "all command lines", "anchors": ["src/libcatnip/io/argumentparser.cpp:ArgumentParser::parseArg_", "src/libcatnip/io/argumentparser.cpp:ArgumentParser::parse", "src/libcatnip/io/io.cpp:prepareParser"]}
{"id": "C61", "title": "Switches accept an explicit value", "statement": "A switch may be given as --flag, or with an explicit value (--flag ON, --flag OFF, ...), which turns it on or off.", "quantifier": "all switches, all accepted values, all surrounding command lines", "why_tests_cant": "the value is validated and stored but never consumed", "anchors": ["src/libcatnip/io/argumentparser.cpp:ArgumentParser::parseArg_"]}
{"id": "C62", "title": "getStr and getInt agree on switches", "statement": "After a successful parse getStr and getInt of a switch agree on whether it is on.", "quantifier": "all calc_J command lines", "why_tests_cant": "the two representations are stored separately", "anchors": ["src/libcatnip/io/argumentparser.cpp:ArgumentParser::getStr", "src/libcatnip/io/argumentparser.cpp:ArgumentParser::getInt", "src/libcatnip/io/argumentparser.cpp:ArgumentParser::parseArg_"]}
{"id": "C63", "title": "Accepted command lines contain only valid values", "statement": "If the calc_J parser accepts a command line then every file flag's value has an allowed extension, every spin value is Alpha or Beta, every orbital type is HOMO or LUMO, and every orbital number starts with an integer in int range.", "quantifier": "all command lines and file systems", "why_tests_cant": "all command lines", "anchors": ["src/libcatnip/io/argumentparser.cpp:ArgumentParser::parse", "src/libcatnip/io/io.cpp:prepareParser"]}
{"id": "C64", "title": "Files are resolved from explicit flags first, then from sister files", "statement": "prepareParameters uses the explicitly given file when it exists, else an existing sister file of the companion flag, and fails with runtime_error when neither exists.", "quantifier": "all command lines and file systems", "why_tests_cant": "paths containing white space, several candidate sisters", "anchors": ["src/libcatnip/io/io.cpp:prepareParameters"]}
{"id": "C65", "title": "Every documented pun extension is usable", "statement": "A coefficient file with any extension the parser advertises and accepts (.pun, .orb, .7) is accepted by parameter preparation.", "quantifier": "all file names and file systems", "why_tests_cant": "two independent checks disagree", "anchors": ["src/libcatnip/io/io.cpp:prepareParser", "src/libcatnip/io/io.cpp:prepareParameters", "src/libcatnip/parameters.cpp:Parameters::setPun1"]}
{"id": "C66", "title": "Orbital numbers have the sign their type demands", "statement": "prepareParameters yields a HOMO number <= 0 or a LUMO number >= 0 for each monomer and throws invalid_argument otherwise.", "quantifier": "all command lines", "why_tests_cant": "all integers", "anchors": ["src/libcatnip/io/io.cpp:prepareParameters"]}
{"id": "C67", "title": "Integers on the command line are read as written", "statement": "stoi of the decimal rendering of any int returns that int; values outside int range are rejected; text not starting with an integer is rejected.", "quantifier": "all integers, all strings", "why_tests_cant": "all strings; trailing text is silently ignored", "anchors": ["src/libcatnip/io/argumentparser.cpp:ArgumentParser::parseArg_"]}
{"id": "C68", "title": "Section headers dispatch to their reader", "statement": "While reading, a section reader runs exactly for the lines containing one of its registered header patterns, the first tag in lexical order winning; other lines are skipped; registering a header without a reader or vice versa is rejected.", "quantifier": "all files and registrations", "why_tests_cant": "all files", "anchors": ["src/libcatnip/io/file_readers/filereader.cpp:FileReader::read", "src/libcatnip/io/file_readers/filereader.cpp:FileReader::startSection_", "src/libcatnip/io/file_readers/filereader.cpp:FileReader::checkSections_"]}
{"id": "C69", "title": "Reading terminates", "statement": "Reading any finite log or pun file terminates (successfully or with an error).", "quantifier": "all finite files", "why_tests_cant": "non-termination on malformed or truncated input", "anchors": ["src/libcatnip/io/file_readers/filereader.cpp:FileReader::read", "src/libcatnip/io/file_readers/logreader.cpp:LogReader::ReadOrbEnergies", "src/libcatnip/io/file_readers/punreader.cpp:PunReader::ReadCoef"]}
{"id": "C70", "title": "The reader's extension check agrees with the file's extension", "statement": "LogReader (PunReader) accepts exactly the file names whose last extension is .log (.pun), in particular every name Parameters accepts.", "quantifier": "all file names", "why_tests_cant": "names with several dots", "anchors": ["src/libcatnip/io/file_readers/filereader.cpp:FileReader::fileExt_", "src/libcatnip/io/file_readers/logreader.cpp:LogReader::validFileName_", "src/libcatnip/io/file_readers/punreader.cpp:PunReader::validFileName_", "src/libcatnip/parameters.cpp"]}
{"id": "C71", "title": "Orbital energies and HOMO level are read completely", "statement": "For an energy block of occupied lines followed by virtual lines, getOE returns all energies in file order and getHOMOLevel the number of occupied ones; only the last block of a spin counts.", "quantifier": "all blocks of any length and any surrounding text", "why_tests_cant": "all files", "anchors": ["src/libcatnip/io/file_readers/logreader.cpp:LogReader::ReadOrbEnergies", "src/libcatnip/io/file_readers/logreader.cpp:LogReader::OrbitalEnergiesAlphaSectionReader"]}
{"id": "C72", "title": "Run-together energies are separated correctly", "statement": "An energy line whose negative numbers are printed without separating blanks yields the same tokens as the line with blanks.", "quantifier": "all energy lists and all ways of dropping blanks before minus signs", "why_tests_cant": "all combinations", "anchors": ["src/libcatnip/io/file_readers/logreader.cpp:splitStEnergies"]}
{"id": "C73", "title": "The overlap matrix read is symmetric and equals the printed one", "statement": "Reading a lower-triangular overlap table printed in blocks of five columns gives the symmetric n x n matrix that was printed.", "quantifier": "all n and all entries", "why_tests_cant": "block arithmetic for every n", "anchors": ["src/libcatnip/io/file_readers/logreader.cpp:LogReader::OverlapSectionReader"]}
{"id": "C74", "title": "The most recent geometry wins", "statement": "getCoords returns the x, y, z columns of the last coordinate table in the file, in order.", "quantifier": "all files with any number of coordinate tables", "why_tests_cant": "histories", "anchors": ["src/libcatnip/io/file_readers/logreader.cpp:LogReader::CoordSectionReader"]}
{"id": "C75", "title": "Coefficient lines are read field by field", "statement": "A line of k 15-character fields mantissa D exponent yields exactly the k numbers; incomplete trailing fields are ignored; no character beyond the line is accessed.", "quantifier": "all lines", "why_tests_cant": "unsigned arithmetic at the end of the line", "anchors": ["src/libcatnip/io/file_readers/punreader.cpp:PunReader::readGausCoefLine"]}
{"id": "C76", "title": "Coefficient matrix is read completely", "statement": "For a spin section of m orbitals of n coefficients each, getCoefsMatrix returns the m x n matrix with row i the i-th orbital.", "quantifier": "all m, n and any following text", "why_tests_cant": "block structure for every n modulo 5", "anchors": ["src/libcatnip/io/file_readers/punreader.cpp:PunReader::ReadCoef", "src/libcatnip/io/file_readers/punreader.cpp:PunReader::getCoefsMatrix"]}
{"id": "C77", "title": "Both spin sections of an unrestricted pun file are read", "statement": "If the file contains an Alpha section followed by a Beta section, both coefficient matrices are available afterwards.", "quantifier": "all files with both sections", "why_tests_cant": "the section end detection consumes a line", "anchors": ["src/libcatnip/io/file_readers/punreader.cpp:PunReader::ReadCoef", "src/libcatnip/io/file_readers/filereader.cpp:FileReader::read"]}
{"id": "C78", "title": "Basis functions are counted per atom", "statement": "getBasisFuncCount returns for each atom, in order, the number of its basis functions listed in the gross orbital population table.", "quantifier": "all tables", "why_tests_cant": "all atom and shell structures", "anchors": ["src/libcatnip/io/file_readers/logreader.cpp:LogReader::AOFunctionSectionReader", "src/libcatnip/io/file_readers/logreader.cpp:LogReader::getBasisFuncCount"]}
{"id": "C79", "title": "A successful calc_J run prints the coupling of the requested orbitals", "statement": "If calc_J completes, the six files were found, the requested orbitals exist, and the value reported is the transfer integral of exactly those monomer orbitals with the dimer brought into monomer atom order whenever population tables are present in all three log files.", "quantifier": "all command lines and file contents", "why_tests_cant": "end to end", "anchors": ["src/tools/main.cpp:main", "src/libcatnip/io/io.cpp:prepareParameters", "src/libcatnip/qc_functions.cpp:TransferComplex"]}
{"id": "C80", "title": "calc_J runs into undefined behaviour on no input", "statement": "Whatever the command line and whatever the six files contain, calc_J never reads memory it does not own or uses an object that was never set: it ends with a coupling, an error or an exit. (In the code this is false: a dimer log without an overlap table, or a monomer atom that matches no dimer atom, gives undefined behaviour or an endless loop. What is proved is that these are the only causes, and that the readers themselves are free of it for every file.)", "quantifier": "all argument lists (arguments shorter than 2^63 characters), all file contents", "why_tests_cant": "absence of undefined behaviour over all inputs", "anchors": ["src/tools/main.cpp:main", "src/libcatnip/io/file_readers/logreader.cpp:OverlapReader", "src/libcatnip/io/file_readers/logreader.hpp:getOverlapMatrix", "src/libcatnip/qc_functions.cpp:update_swap_lists"]}
{"id": "C81", "title": "Coordinates are matched to four decimals", "statement": "matchRow/matchCol(mat, nd), which calc_J uses with nd = 4 to find each atom of a monomer in the dimer, pair two rows or columns exactly when all their entries agree after rounding to nd decimals; in particular entries of paired columns differ by less than 10^-nd.", "quantifier": "every matrix pair and every pair of entries, of any sign and magnitude, and every number of decimals", "why_tests_cant": "the comparison goes through a printed text whose format switches with magnitude (six significant digits, exponent notation, sign of zero); a test sees a few coordinates, the claim is about all of them", "anchors": ["src/libcatnip/matrix.cpp:171-176 double_tos", "src/libcatnip/matrix.cpp:837-891 Matrix::matchRow, Matrix::matchCol", "src/libcatnip/qc_functions.cpp:630-680 TransferComplex::unscramble"]}
{"id": "C82", "title": "The printed report is that of the computed coupling", "statement": "When calc_J ends normally its standard output names the six files, the spins and the two orbitals (labels such as HOMO-1 or LUMO+2, different for different orbitals) and then the direct coupling, the two site energies, the overlap and, on the last line, the effective coupling, in eV: exactly the numbers of the requested orbitals, related by J_eff = (J_ab - (e_a+e_b) S_ab/2)/(1-S_ab^2). Output is complete only if the coupling was computed. (Between the version line and the file names stand the usage or citation texts asked for; C128 gives the whole output on every command line.)", "quantifier": "all command lines, file contents and orbital requests", "why_tests_cant": "relates every line of the output to the inputs for every job", "anchors": ["src/tools/main.cpp:29-171 main", "src/libcatnip/qc_functions.cpp:60-118 calculate_transfer_integral", "src/libcatnip/constants.hpp hartreeToeV"]}
{"id": "C83", "title": "Printing a matrix shows every element in its place", "statement": "Inserting a Matrix into an output stream writes its dimensions and then, for each shelf, a header and one line per row holding that shelf's elements of the row in column order. (The code prints the elements of shelf 1 for every shelf.)", "quantifier": "every matrix and every way of printing a number", "why_tests_cant": "The text has as many free parts as the matrix has elements and dimensions; a test compares one literal.", "anchors": ["src/libcatnip/matrix.cpp:178-202 operator<<"]}
{"id": "C84", "title": "get_elem_ptr agrees with get_elem and set_elem", "statement": "For every row and column of a matrix, reading or writing through get_elem_ptr(r,c) is get_elem(r,c) and set_elem(v,r,c); a coordinate outside the matrix is rejected as those functions reject it. (The code makes no check: one column too far is the next row, past the end is undefined behaviour.)", "quantifier": "every matrix, coordinate and value", "why_tests_cant": "Out-of-range coordinates of every matrix, with undefined behaviour that a test may not notice.", "anchors": ["src/libcatnip/matrix.cpp:735-737 get_elem_ptr"]}
{"id": "C85", "title": "The help text lists every flag completely", "statement": "showUsage prints, for every registered flag in order, its full name, its abbreviation and every word of its description, in lines of at most 80 characters (unless a word is too long), and ends. (With a flag that has no abbreviation the code prints about 2^64 blanks or never ends; lines may exceed 80 characters by the first word of the line, and calc_J's own help does.)", "quantifier": "every set of declared flags and descriptions", "why_tests_cant": "Ranges over all declarations; the failing case depends on the sizes of all abbreviations together.", "anchors": ["src/libcatnip/io/argumentparser.cpp:96-141 showUsage", "src/libcatnip/io/argumentparser.cpp:16-94 ArgumentParser"]}
{"id": "C86", "title": "A parser knows exactly the flags it was built from", "statement": "The ArgumentParser constructor accepts a set of flag declarations exactly if each has at most three items, exactly one full name (--), at most one abbreviation (-) and at most one description, in any order and with surrounding blanks; otherwise it throws invalid_argument. The flags then known are those declared, with their abbreviations and descriptions, and --help. Of several declarations of one full name (also of --help) the last in dictionary order counts.", "quantifier": "every set of declarations", "why_tests_cant": "All declarations and all orders of their items.", "anchors": ["src/libcatnip/io/argumentparser.cpp:16-94 ArgumentParser"]}
{"id": "C87", "title": "Values offered by the help text are accepted", "statement": "For a flag whose help text lists its options, each option is accepted as a value wherever the flag may be given. (The spin flags offer alpha and beta, which are always rejected; only Alpha and Beta are accepted.)", "quantifier": "every flag with listed options, every option and every command line around it", "why_tests_cant": "All command lines.", "anchors": ["src/libcatnip/io/io.cpp:80-122", "src/libcatnip/io/io.cpp:245-291 prepareParser"]}
{"id": "C88", "title": "It does not matter which monomer is called the first", "statement": "Exchanging the files, spins, orbital types and orbital numbers of the two monomers on the calc_J command line leaves the reported coupling unchanged, in whatever order the output files list the atoms.", "quantifier": "all well-formed complete sets of output files (any sizes, any order of the atoms), all pairs of accepted command lines that differ by exchanging the monomers, with and without counterpoise", "why_tests_cant": "All files, sizes and atom orders; the two runs reorder the dimer differently.", "anchors": ["src/tools/main.cpp:main", "src/libcatnip/qc_functions.cpp:unscramble_Coef, unscramble_S, calculate_transfer_integral", "src/libcatnip/io/io.cpp:prepareParameters"]}
{"id": "C89", "title": "An argument always answers for exactly the options of its kind", "statement": "For an integer, floating point, text, switch or file argument, after any sequence of successful calls of its interface, getPropertyOptions() lists exactly the options of its kind, getPropertyValues() succeeds and has a value for exactly these, getPropertyValues(property, option) returns the same value for each, and throws invalid_argument for any other property or option; getProperties() lists the kind's properties. The options of a new argument have the documented defaults: any int, any double between the limits, any text, switch off, any file.", "quantifier": "all five kinds, all histories of setArgPropertyOpt and argValid calls on all file systems, all property and option names", "why_tests_cant": "all histories and names", "anchors": ["src/libcatnip/io/arguments/argumentobject.hpp:getPropertyOptions", "src/libcatnip/io/arguments/argumentobject.hpp:getPropertyValues", "src/libcatnip/io/arguments/argumentobject.hpp:getProperties"]}
{"id": "C90", "title": "What is written to an option of an argument is read back", "statement": "setArgPropertyOpt succeeds exactly for an option of the argument whose type is that of the value (a single text also for options holding several); afterwards getPropertyValues(property, option) shows the value and every other option is unchanged; otherwise invalid_argument is thrown. (Options of type size_t, the length limits, have no overload.)", "quantifier": "all five kinds, all histories, all options, all values", "why_tests_cant": "all histories and values", "anchors": ["src/libcatnip/io/arguments/argumentobject.hpp:setArgPropertyOpt", "src/libcatnip/io/arguments/argumentobject.hpp:getPropertyValues"]}
{"id": "C91", "title": "What is set with setFlagArgOpt is read back with getFlagArgOptValue", "statement": "For any parser in any state, setFlagArgOpt succeeds exactly for options of the named argument with a value of the right type; getFlagArgOptValue then returns it; the other options of the argument keep their values, and all other flags and arguments are unchanged. (The code never finds double arguments when reading.)", "quantifier": "all parsers reachable by any calls including parse, all flags, arguments, properties, options, values", "why_tests_cant": "all histories", "anchors": ["src/libcatnip/io/argumentparser.cpp:ArgumentParser::setFlagArgOpt", "src/libcatnip/io/argumentparser.cpp:ArgumentParser::getFlagArgOptValue"]}
{"id": "C92", "title": "Adding an argument to a flag", "statement": "addFlagArg gives a flag an argument of the named kind with the default options if it has none of that kind, changing nothing else, and throws invalid_argument if it has one already or the kind is unknown. (For double arguments the code looks for a file argument instead: a second double argument silently replaces the first.)", "quantifier": "all parsers reachable by any calls, all flags, all kinds", "why_tests_cant": "all histories", "anchors": ["src/libcatnip/io/argumentparser.cpp:ArgumentParser::addFlagArg"]}
{"id": "C93", "title": "Row and column operations on every shape and every number", "statement": "For every matrix with positive dimensions: get_row/get_col return the line of shelf 1 for a valid number and read outside the buffer otherwise. set_row needs a vector of length cols, replaces exactly that row of shelf 1, and writes outside the buffer for an invalid number. set_col also needs a vector of length cols: with at most as many rows as columns it stores the first rows values and changes nothing else, with more rows it throws out_of_range, and for an invalid number it writes outside the buffer. swap_row exchanges two rows, swap_col two columns of a square matrix and is refused (invalid_argument) for non-square ones; equal numbers change nothing; invalid numbers read outside the buffer. move_row/move_col shift the lines in between, end the process for an invalid target and read outside the buffer for an invalid source; move_col of a non-square matrix is refused. getCol ends the process for invalid columns and for matrices with more rows than columns, and otherwise returns a column of cols rows padded with 0.", "quantifier": "every matrix of positive dimensions, every integer row / column number and every vector", "why_tests_cant": "the outcome depends on the aspect ratio and on out-of-range numbers whose effect is undefined behaviour", "anchors": ["src/libcatnip/matrix.cpp:Matrix::set_row", "src/libcatnip/matrix.cpp:Matrix::set_col", "src/libcatnip/matrix.cpp:Matrix::get_row", "src/libcatnip/matrix.cpp:Matrix::get_col", "src/libcatnip/matrix.cpp:Matrix::swap_row", "src/libcatnip/matrix.cpp:Matrix::swap_col", "src/libcatnip/matrix.cpp:Matrix::move_row", "src/libcatnip/matrix.cpp:Matrix::move_col", "src/libcatnip/matrix.cpp:Matrix::getCol"]}
{"id": "C94", "title": "set_rows, set_cols and set_shel: the outcome for every shape and size", "statement": "A negative size ends the process. set_rows(r) keeps the remaining rows when r <= rows and sets the whole matrix to 0 when r > rows. set_cols(c): c = cols changes nothing, c = 0 leaves no columns, 0 < c < cols keeps the remaining columns of a one-row matrix and writes outside the buffer otherwise; with c > cols every element is lost: position (i-1)*c+j in row order is 0 if it is at most (rows-1)*cols+c and holds no value otherwise. set_shel(s) likewise: with s > shel the first (rows*cols-1)*shel+s positions are 0 and the others hold no value.", "quantifier": "every matrix of positive dimensions and every integer size", "why_tests_cant": "which cells are uninitialised and when memory is overrun depends on all three dimensions", "anchors": ["src/libcatnip/matrix.cpp:Matrix::set_rows", "src/libcatnip/matrix.cpp:Matrix::set_cols", "src/libcatnip/matrix.cpp:Matrix::set_shel"]}
{"id": "C95", "title": "removeSpace, isAlphabetical and one-sided trimming", "statement": "removeSpace turns a C string into the C string of its non-blank characters in their order and changes nothing behind the new terminator; isAlphabetical is true exactly for nonempty strings of ASCII letters; ltrimmed and rtrimmed remove exactly the white space at the front / at the end.", "quantifier": "every string and every buffer that contains a terminated string", "why_tests_cant": "all strings; in-place compaction is order sensitive", "anchors": ["src/libcatnip/string_support.cpp:removeSpace", "src/libcatnip/string_support.cpp:isAlphabetical", "src/libcatnip/string_support.cpp:ltrimmed", "src/libcatnip/string_support.cpp:rtrimmed"]}
{"id": "C96", "title": "The last-occurrence helpers cut at the last character that is one of the pattern's", "statement": "For every string and pattern, the four last-occurrence helpers cut at the last character of the string that is one of the pattern's characters (before / after it, with or without it); if there is none, the 'before' helpers return the string and the 'after' helpers nothing.", "quantifier": "every string and every pattern", "why_tests_cant": "all strings and patterns", "anchors": ["src/libcatnip/string_support.cpp:grabStrBeforeLastOccurance", "src/libcatnip/string_support.cpp:grabStrAfterLastOccurance", "src/libcatnip/string_support.cpp:grabStrAfterLastOccuranceInclusive", "src/libcatnip/string_support.cpp:grabStrBeforeLastOccuranceInclusive"]}
{"id": "C97", "title": "File extension and sister file properties used directly", "statement": "PropertyFileExt() validates every path. PropertyFileExt(ext) and PropertyFileExt(exts) accept exactly the empty string, '.' followed by text without a dot, and anything starting with '*', and then allow exactly those; a property made this way validates exactly the paths whose file name has the extension (all, for a wild card). Its setters store anything under ALLOWED_FILE_EXT and refuse other options. PropertySisterFile's setters accept exactly such extensions (no wild card) for ALLOWED_SISTER_FILE_EXT, change no other option, and refuse every other option; extSupported accepts exactly the allowed extensions.", "quantifier": "every string, list of strings, option name and path", "why_tests_cant": "all strings", "anchors": ["src/libcatnip/io/arguments/properties/propertyfileext.cpp", "src/libcatnip/io/arguments/properties/propertysisterfile.cpp"]}
{"id": "C98", "title": "set_elem(v), get_elem() and total_elem()", "statement": "set_elem(v) writes element (1,1,1) and nothing else, get_elem() reads it, and total_elem() is the number of coordinates of the matrix.", "quantifier": "every matrix of positive dimensions and every value", "why_tests_cant": "all shapes", "anchors": ["src/libcatnip/matrix.cpp:Matrix::set_elem", "src/libcatnip/matrix.cpp:Matrix::get_elem", "src/libcatnip/matrix.cpp:Matrix::total_elem"]}
{"id": "C99", "title": "The numbers printed, in the machine's own arithmetic", "statement": "For complete output files calc_J prints exactly the five numbers obtained by the operations + - * / of the machine in a stated order: projections as row times (overlap times column), sums from the first to the last term starting at 0, J_eff = (J_ab - 1/2*(e_b + e_a)*S_ab)/(1 - S_ab*S_ab). No law of arithmetic is needed, so the statement covers rounded arithmetic.", "quantifier": "every arithmetic, every set of complete files (atoms in any order), every orbital, with and without counterpoise", "why_tests_cant": "all files and all orders of atoms; rounding modes and platforms differ", "anchors": ["src/libcatnip/qc_functions.cpp:calculate_transfer_integral", "src/libcatnip/qc_functions.cpp:TransferComplex::calculate_transfer_integral", "src/libcatnip/matrix.cpp:operator*", "src/tools/main.cpp"]}
{"id": "C100", "title": "The order in which files list the atoms does not change a bit", "statement": "Two sets of files of the same calculation that list the atoms of the dimer (and, with counterpoise, of monomer 2) in different orders give bit for bit the same five numbers.", "quantifier": "every arithmetic, all files, all permutations of the atoms", "why_tests_cant": "all permutations and all rounding behaviours", "anchors": ["src/libcatnip/qc_functions.cpp:TransferComplex::prepareForCounterPoise_", "src/libcatnip/qc_functions.cpp:TransferComplex::prepareForNoCounterPoise_", "src/libcatnip/qc_functions.cpp:organizePComponents"]}
{"id": "C101", "title": "Phases of orbitals", "statement": "Reversing the sign of any dimer orbitals in the dimer's files does not change the numbers printed; reversing the sign of the orbital asked for in the files of one monomer reverses the signs of J_ab, S_ab and J_eff and keeps the site energies.", "quantifier": "every arithmetic that obeys the laws of signs (exact, or rounded symmetrically), all files, with and without counterpoise", "why_tests_cant": "phases are arbitrary in the output of quantum chemistry programs; all files", "anchors": ["src/libcatnip/qc_functions.cpp:calculate_transfer_integral"]}
{"id": "C102", "title": "Any parser: the last value given for a flag is the one read back, others keep their default", "statement": "With an ArgumentParser of arbitrary flags and arguments (each flag with at most one argument, declared, abbreviations unique), a command line that parse() accepts can be read in exactly one way; afterwards getInt/getStr/getDouble return for each flag the last value the command line gives it and otherwise what was set with setFlagDefaultValue; a switch once given reads 1 (and ON unless a text default was set) and never takes a value; getSize_t always returns the default set. setFlagDefaultValue changes the value of that flag only.", "quantifier": "every parser, every command line, every flag, every default", "why_tests_cant": "all parsers and all command lines", "anchors": ["src/libcatnip/io/argumentparser.cpp:ArgumentParser::parse", "src/libcatnip/io/argumentparser.cpp:ArgumentParser::parseArg_", "src/libcatnip/io/argumentparser.cpp:ArgumentParser::setFlagDefaultValue", "src/libcatnip/io/argumentparser.cpp:ArgumentParser::getSize_t"]}
{"id": "C103", "title": "From the command line to the printed numbers", "statement": "An intelligible calc_J command line (values of the right kind, file flags at most once, file names without white space), with the files it means in place and complete, makes calc_J end and print the five numbers of the two orbitals asked for, with the spins and the counterpoise setting asked for.", "quantifier": "every intelligible command line, all contents of complete files, every arithmetic", "why_tests_cant": "all combinations of flags, defaults, companions and file contents", "anchors": ["src/tools/main.cpp:main", "src/libcatnip/io/io.cpp:prepareParser", "src/libcatnip/io/io.cpp:prepareParameters"]}
{"id": "C104", "title": "The order of the flags on the command line does not matter", "statement": "Two intelligible command lines that give the same values to each flag (in any order of the flags, written in full or abbreviated) make calc_J do the same, or are both refused with an exception.", "quantifier": "all pairs of such command lines, all file systems", "why_tests_cant": "all permutations of all command lines", "anchors": ["src/libcatnip/io/argumentparser.cpp:ArgumentParser::parse", "src/libcatnip/io/io.cpp:prepareParameters"]}
{"id": "C105", "title": "Rounding errors of the printed numbers are bounded", "statement": "If every machine operation has a relative error of at most u, each of the numbers calc_J prints for complete files (coupling, two site energies, overlap, effective coupling) differs from the exact value of its formula by at most ((1+u)^n - 1) times the formula with all signs made positive, where n grows linearly with the number of basis functions and orbitals (2P+2N+2M+6 operations for the coupling and the energies, 2P+2N+M+5 for the overlap); the effective coupling is within the corresponding quotient bound as long as the error of 1-S^2 is smaller than 1-S^2. With u = 0 the numbers are exact.", "quantifier": "every arithmetic with bounded relative error, every u, all sizes, all files and command lines of complete jobs", "why_tests_cant": "all inputs and all machine arithmetics; a test shows the error of one input", "anchors": ["src/libcatnip/qc_functions.cpp:calculate_transfer_integral", "src/libcatnip/matrix.cpp:operator*", "src/tools/main.cpp:main"]}
{"id": "C106", "title": "Which command lines a parser accepts", "statement": "Whatever flags, arguments and options an ArgumentParser was given, and whatever it has parsed before, parse accepts a command line exactly when it consists of declared flags (or their abbreviations) followed by values acceptable to the options of their arguments (integers that fit an int and lie within the bounds, numbers within the bounds, texts of admissible length that are among the choices when these are enforced, paths with an allowed extension that exist when they must), of switches followed by nothing or by a declared flag, and of requests for information, but not of these only, and every flag whose file must exist has been given a file. Every other command line makes it throw, except that the program ends with status 0 exactly when the version is asked for after an acceptable beginning or only information is asked for. It never has undefined behaviour. The options that count are those last set; the defaults are the bounds of the types, no enforced choice, no required file, any extension.", "quantifier": "every reachable parser with one argument per flag, every command line, every file system", "why_tests_cant": "infinitely many flag sets, option settings, histories and command lines", "anchors": ["src/libcatnip/io/argumentparser.cpp:parse", "src/libcatnip/io/argumentparser.cpp:parseArg_", "src/libcatnip/io/argumentparser.cpp:postParseCheck_", "src/libcatnip/io/argumentparser.cpp:setFlagArgOpt", "src/libcatnip/io/arguments/argumentobject.hpp"]}
{"id": "C107", "title": "The exact outcome of unscrambling, for every list of matches", "statement": "Computing the swap order for requests at different positions runs forever exactly when a request that finds its block already in place (it closes a cycle of requests) is followed by one for the same block; in the two-list overload only such requests of the first list matter. Otherwise it returns, and each entry names the place to which the earlier requests have moved the block asked for. Hence the four unscrambling functions have exactly three outcomes for match lists not longer than the dimer: if the requests clash they never return; otherwise, if some match names no atom, they access a block outside the list; otherwise they return a rearrangement of the blocks of atoms (the same for coefficients and for both sides of the overlap matrix), none lost and none repeated, even when two matches name the same atom.", "quantifier": "every list of requests at different positions; every pair of match lists not longer than the dimer, every list of positive block sizes, every matrix of that width", "why_tests_cant": "infinitely many match lists; non-termination cannot be observed by a test", "anchors": ["src/libcatnip/qc_functions.cpp:refreshSwapOrder", "src/libcatnip/qc_functions.cpp:updateSwapLists", "src/libcatnip/qc_functions.cpp:unscramble_Coef", "src/libcatnip/qc_functions.cpp:unscramble_S"]}
{"id": "C108", "title": "A copy-constructed matrix is another name of its original", "statement": "In every program using matrices - constructing, copying, deriving, assigning, resizing and writing in any order - the values seen (and the way a failing program fails) are those of the reading in which `Matrix b(a)` makes b another name of a: a write through one name shows in all names, and a name that is resized (or whose dimension is changed, or that is assigned to) gets a matrix of its own while all other names of the old matrix lose their numbers, after which reading or resizing them is undefined. In particular a and its copy stay equal as long as neither is resized or assigned to.", "quantifier": "all programs (sequences of matrix statements) of any length over any number of objects", "why_tests_cant": "all histories of copying and writing", "anchors": ["src/libcatnip/matrix.hpp:Matrix", "src/libcatnip/matrix.cpp:Matrix::operator=", "src/libcatnip/matrix.cpp:Matrix::resize"]}
{"id": "C109", "title": "findRank on every shape", "statement": "findRank ends the process when the alpha or the beta energies have more rows than columns; otherwise it returns, in ascending order, the entries of the first column of each matrix with their spin, and one zero for every column a matrix has in excess of its rows; with no beta energies only the alpha entries are ranked.", "quantifier": "all pairs of matrices of all dimensions, every sorting routine", "why_tests_cant": "all shapes and contents", "anchors": ["src/libcatnip/qc_functions.cpp:findRank", "src/libcatnip/matrix.cpp:Matrix::getCol"]}
{"id": "C110", "title": "The exact outcome of calcJ", "statement": "For every transfer complex and every request, calcJ looks at the request for monomer 1 and then at that for monomer 2: a monomer without orbital type or number gives out_of_range, a type other than HOMO/LUMO or a number on the wrong side of it or beyond the counted orbitals gives invalid_argument, and a named row the coefficients do not have ends the process with status 1. After that the process ends with status 1 if the monomer bases do not add up to the rows of the overlap (with counterpoise: do not each equal them) or if there is not one energy for each dimer orbital; in all other cases the result is the coupling of the two orbitals named. The constructor refuses with invalid_argument, before any request is looked at, exactly the complexes whose overlap and dimer coefficients differ in columns or whose monomer bases do not fit.", "quantifier": "all coefficient, overlap and energy matrices of all dimensions, all orbital counts, both basis modes, all requests", "why_tests_cant": "all combinations of dimensions and requests, over every field", "anchors": ["src/libcatnip/qc_functions.cpp:TransferComplex::calcJ", "src/libcatnip/qc_functions.cpp:TransferComplex::TransferComplex"]}
{"id": "C111", "title": "Every run has exactly one outcome", "statement": "On every command line and every file system calc_J either ends, with exactly one outcome (its output, an error or an exit status), or does not end; so does reading a single log or pun file. A run that has been seen to end with an outcome has no other.", "quantifier": "all command lines, all file names and contents", "why_tests_cant": "all inputs, including those on which the program does not end", "anchors": ["src/tools/main.cpp:main", "src/libcatnip/io/file_readers/filereader.cpp:FileReader::read"]}
{"id": "C112", "title": "A run ends soon or never", "statement": "If reading a log (pun) file of len characters has not ended when each of its loops has made 2 len + 6 (3 len + 6) passes, it never ends; the same holds of calc_J with 3 len + 6 passes, when the six files named on the command line have at most len characters each.", "quantifier": "all command lines, all file names, all file contents of every length", "why_tests_cant": "no test can tell a slow run from one that never ends", "anchors": ["src/tools/main.cpp:main", "src/libcatnip/io/file_readers/filereader.cpp:FileReader::read", "src/libcatnip/io/file_readers/logreader.cpp:LogReader", "src/libcatnip/io/file_readers/punreader.cpp:PunReader::ReadCoef"]}
{"id": "C113", "title": "int arithmetic stays in range below a stated size", "statement": "With 32-bit int, reading, writing, making, resizing, assigning, transposing, multiplying, stacking and diagonalising matrices whose operands and results have fewer than 2^31 - 1 elements never overflows, and gives exactly what unbounded integers give; so do calculate_transfer_integral and TransferComplex::calcJ with at most 46340 basis functions and orbitals, for every int request. The limit is sharp: from 46341 orbital energies on, Matrix_diag overflows, which is undefined behaviour.", "quantifier": "all matrices of every size below the limit, all coordinates, all values, all requests", "why_tests_cant": "overflow needs matrices of gigabytes, and undefined behaviour need not show", "anchors": ["src/libcatnip/matrix.cpp:Matrix::index", "src/libcatnip/matrix.cpp:Matrix::Matrix", "src/libcatnip/matrix.cpp:Matrix_diag", "src/libcatnip/matrix.cpp:operator*", "src/libcatnip/qc_functions.cpp:calculate_transfer_integral", "src/libcatnip/qc_functions.cpp:TransferComplex::calcJ"]}
{"id": "C114", "title": "The items of an energy line, for every line", "statement": "A line of orbital energies with exactly nine words is read as those words. In any other line the first four words are kept and every later word is cut before each minus sign in it: the pieces joined give the word back, none is empty, none has a minus sign after its first character and each but the first begins with one.", "quantifier": "all lines of every length and layout", "why_tests_cant": "the lines are unbounded and the nine-word case is reached by accident", "anchors": ["src/libcatnip/io/file_readers/logreader.cpp:splitStEnergies", "src/libcatnip/string_support.cpp:splitSt"]}
{"id": "C115", "title": "Whatever the file, what was read is consistent", "statement": "If reading a log file returns, the overlap matrix held (if any) is square, has a value at every place and is symmetric; orbital energies and a HOMO level are held for Alpha and Beta only, both or neither, and 0 <= HOMO level <= number of energies; the coordinates are none or three lists of equal length; every basis function count is at least 1. If reading a pun file returns, coefficient matrices are held for Alpha and Beta only, with at least one row and a value at every place, and restrictedShell is true exactly when one of the two spins is held.", "quantifier": "all files of every length and content, well formed or not", "why_tests_cant": "the files are arbitrary texts; tests use a few well-formed ones", "anchors": ["src/libcatnip/io/file_readers/logreader.cpp:LogReader", "src/libcatnip/io/file_readers/logreader.hpp:getOverlapMatrix", "src/libcatnip/io/file_readers/punreader.cpp:PunReader::ReadCoef", "src/libcatnip/io/file_readers/punreader.hpp:restrictedShell"]}
{"id": "C116", "title": "Splitting and merging blocks: exact outcome", "statement": "Splitting a matrix into blocks of given sizes (all at least 1, not exceeding the matrix) gives exactly that many blocks, each the next consecutive columns (or rows), with the rest dropped. Merging a list of matrices into a target of given size puts block after block side by side (or below each other), aligned to the first row (column), with 0 everywhere else; the first block that does not fit decides the failure: along the merging direction exit status 1, across it runtime_error; a target with fewer than one row or column exits with status 1.", "quantifier": "every matrix, every list of sizes, every list of blocks, every target size", "why_tests_cant": "the lists and sizes are unbounded, and the failure depends on the first misfitting block at any position", "anchors": ["src/libcatnip/qc_functions.cpp:splitMatrixIntoList", "src/libcatnip/qc_functions.cpp:mergeListOfMatrices", "src/libcatnip/qc_functions.cpp:createNewMatrix"]}
{"id": "C117", "title": "A coordinate table, whatever is in it", "statement": "Below a line announcing coordinates two lines are skipped; then every line is a row until one contains 69 hyphens. The first line in between whose words number four to six are not all there and numbers makes reading fail: with out_of_range if a word is missing, with the exception of stod if it is no number. If the text ends after a complete line this is the empty line after it (out_of_range). If it ends within a row (no final line end) that row is read again and again and reading never ends. One of the three always applies.", "quantifier": "every text after a line announcing coordinates that follows plain lines", "why_tests_cant": "the text after the announcement is arbitrary and non-termination is among the outcomes", "anchors": ["src/libcatnip/io/file_readers/logreader.cpp:CoordSectionReader"]}
{"id": "C118", "title": "Reading a log file part by part", "statement": "If a log file starts with complete tables and lines of no interest, then what it gives is determined by that first part and by what the rest would give as a file of its own: if the rest alone is read, the whole file is read, and each getter (coordinates, overlap matrix, energies and HOMO level of a spin) gives what the rest says, and where the rest says nothing what the first part says; if the rest alone ends with an exception, exits or is undefined, so does the whole file; if the rest alone is read for ever, so is the whole file.", "quantifier": "every sequence of well formed tables and plain lines, followed by every text whatsoever (provided its first line does not continue a table of energies), in any three files", "why_tests_cant": "The second part is an arbitrary text: well formed, broken at any place or endless; no set of sample files covers them, and the claim relates three runs.", "anchors": ["src/libcatnip/io/file_readers/filereader.cpp: FileReader::read", "src/libcatnip/io/file_readers/logreader.cpp: LogReader section readers", "src/libcatnip/io/file_readers/logreader.hpp: getOE, getHOMOLevel, getOverlapMatrix, getCoords, getBasisFuncCount"]}
{"id": "C119", "title": "A punch file, whatever is in it", "statement": "What reading a .pun file gives is determined by its numbered lines alone: lines are skipped until one announces a table; an orbital of a table consists of lines of 15-character fields up to a line with ' MO OE' or until it has as many coefficients as the orbital before; the table goes on as long as the line after an orbital names the spin. If all orbitals of every table are complete, numeric and of equal length, the file is read, getCoefsMatrix gives the last table of each spin entry by entry (invalid_argument if there is none) and restrictedShell tells whether there is exactly one; the first field that is no number gives the exception of stod; a table of unequal orbitals gives invalid_argument; an orbital that is never complete (lines past the end of the file count as repetitions of the last one) makes read run for ever. There is no other case.", "quantifier": "every text whatsoever of a .pun file (shorter than 2^63 characters) and every name with that extension", "why_tests_cant": "It is a complete case distinction over all texts, with the exact tables, the exact exception, or a proof that reading never ends (which no test can observe).", "anchors": ["src/libcatnip/io/file_readers/punreader.cpp: PunReader::ReadCoef, readGausCoefLine, getCoefsMatrix", "src/libcatnip/io/file_readers/punreader.hpp: restrictedShell", "src/libcatnip/io/file_readers/filereader.cpp: FileReader::read, startSection_, readSection_"]}
{"id": "C120", "title": "A log file, whatever is in it", "statement": "For an arbitrary text in a .log file, the lines of the text determine what reading it does, and exactly one of three things happens: (a) it is read, and afterwards getCoords, getOE, getHOMOLevel, getOverlapMatrix and getBasisFuncCount give what the last table of each kind says (coordinates: words 4-6 of the lines from the third after the header to the ruler; energies: the words from the fifth on of the consecutive occ./virt. lines, cut before minus signs unless there are nine words; overlap: the rows of the first block counted 1, 2, ..., the later blocks by position, each entry also at the transposed place; basis functions: number of different labels per atom, over all population tables), energies of a spin never listed throw out_of_range, and an overlap matrix never listed is undefined behaviour; (b) it fails: a position that is missing or no number, something in a population line or overlap row that is no number, a row number that is none or a too short line after an atom's first function throws, an overlap table without rows or with entries beyond the last column terminates the program with status 1; (c) it never ends: a coordinate table that never sees its ruler and whose further lines all list positions, a population table that never sees its last line, or a line that announces energies without a blank after the dashes, which is read again and again.", "quantifier": "every text of fewer than 2^63 characters, every plain .log name, every file system holding that text under the name, every number type", "why_tests_cant": "the texts are unbounded and arbitrary: tables cut short, repeated, misordered, interleaved, with lines of any length; a test feeds one file, and no test can show that reading never ends or that there is no fourth case", "anchors": ["src/libcatnip/io/file_readers/logreader.cpp: LogReader::CoordReader, AOFunctionReader, ReadOrbEnergies, OverlapReader, ReadOverlapCoefFirstSection, ReadOverlapCoef, getCoords, getOE, getHOMOLevel, getOverlapMatrix, getBasisFuncCount", "src/libcatnip/io/file_readers/filereader.cpp: FileReader::read, startSection, getSection"]}
{"id": "C121", "title": "Unscrambling, for every list of matches and all block sizes", "statement": "unscramble_Coef and unscramble_S, with one or with two lists of matches, of any lengths and contents, and any list of block sizes, on any matrix: if a block size is less than 1 or the blocks together are wider than the matrix (for unscramble_S also: higher), the process ends with status 1; otherwise if two requests clash the call never returns; otherwise, if some exchange that has to be made concerns a place that is no block, the behaviour is undefined; otherwise the result has the same dimensions and consists of the blocks in the order obtained by serving the requests one after the other, every other block keeping its columns together, and the columns (rows) after the last block are replaced by zeros.", "quantifier": "every one or two lists of matches, every list of block sizes, every matrix, every element type", "why_tests_cant": "the lists and the matrix are unbounded and nothing is assumed about them (matches may repeat, may be missing, may name places that do not exist; blocks may have any size); non-termination cannot be tested", "anchors": ["src/libcatnip/qc_functions.cpp: unscramble_Coef, unscramble_S, refreshSwapOrder, updateSwapLists, splitMatrixIntoList, splitCoefsUpByAtoms, mergeListOfMatrices, createNewMatrix"]}
{"id": "C122", "title": "calc_J on six files, whatever is in them", "statement": "Given an intelligible command line (flags with values of their kind, file flags at most once, no white space in file names): if one of the six files meant is not there, or an orbital number has the wrong sign, calc_J throws. Otherwise it reads the files of coefficients of dimer, monomer 1, monomer 2 and then the log files in the same order; the first that cannot be read decides: a name that is no plain .pun/.log name or a missing file throws invalid_argument, a bad line throws or ends the process as C119/C120 say, an endless table hangs it. Then, in this order: no overlap table in the dimer's log is undefined behaviour; coefficients missing for the spin asked for throw invalid_argument, energies or coordinates missing throw out_of_range; sizes that do not fit throw invalid_argument; if all three logs have basis function counts the atoms of monomer 2 (counterpoise) and of the dimer are put in the order of the monomers, each atom being matched to the last atom printed alike, with the outcomes of C121; the orbitals of monomer 1, then of monomer 2, are looked up (C110; no coefficients ends the process with status 1); the process ends with status 1 unless the monomers' basis functions add up to the dimer's and there are as many energies as orbitals of the dimer; and otherwise it reports the site energies, overlap and couplings computed in machine arithmetic from exactly these numbers. In particular, once the files are read, the behaviour is undefined exactly when the overlap table is missing or an atom to be put in order is not found, and the program hangs exactly when the requests for the atoms clash.", "quantifier": "every intelligible command line, every content of all files (arbitrary text below 2^63 characters), every number type with arbitrary operations", "why_tests_cant": "six arbitrary texts; each outcome, including undefined behaviour and non-termination, is characterised exactly", "anchors": ["src/tools/main.cpp: main", "src/libcatnip/io/file_readers/*.cpp", "src/libcatnip/parameters.cpp", "src/libcatnip/qc_functions.cpp: unscramble_Coef, unscramble_S", "src/libcatnip/transfercomplex.cpp: TransferComplex, unscramble, calcJ"]}
{"id": "C123", "title": "Reading again", "statement": "read() may be called again on the same reader, while the file changes between the calls. For a punch file the getters then give, for each spin, the table listed last in any of the contents read; an unchanged file read again makes no difference. The same holds for a log file (its lists of basis functions are put together) with one exception: if the first line announces orbital energies of a spin, and the file is not longer than what was read before, then reading it again loses these energies - the getters give an empty list and no occupied orbital - and nothing else of the file is read; what else was known stays. (Not covered: a file whose first line announces energies, read after a shorter or an empty one.) The first contents that cannot be read end the call as they would a first call: with the same exception, or never. After a call that ended with an exception because of the contents, the next call of read() reads nothing and returns normally.", "quantifier": "all sequences of contents of the file (arbitrary texts; for a log file that starts with energies and is longer than what was read before, nothing is said), all numbers of calls", "why_tests_cant": "The state left by one call (the position, the stream, the tables) meets arbitrary contents in the next one; histories are unbounded.", "anchors": ["src/libcatnip/io/file_readers/filereader.cpp: read, open, close", "src/libcatnip/io/file_readers/logreader.cpp: ReadOrbEnergies, OrbitalEnergiesAlphaSectionReader", "src/libcatnip/io/file_readers/punreader.cpp: ReadCoef"]}
{"id": "C124", "title": "calc_J on every command line", "statement": "On every command line and with every set of files calc_J does exactly one definite thing. A line that asks for the version, or only for information, ends with exit status 0; an empty line, and a line whose first mistake is a flag without its value, end with a runtime_error; a number beyond int as the first mistake gives out_of_range, any other first mistake invalid_argument. On a line without a mistake the six files are taken thus: if any value given for the flag names an existing file, the last value given is taken, whether it exists or not; otherwise the file is looked for next to the last value given for its companion flag, where the last of the candidate extensions (.orb, .7, .pun, or .log) for which a file exists is taken (the candidates are joined with blanks and counted by words, so with a blank in the name the word at the place of the match is taken instead); if nothing is found a runtime_error is thrown. A taken name must end in .pun or .log (invalid_argument, or out_of_range if it is shorter than four characters), the orbital numbers must have the sign that goes with their type (invalid_argument), in this order; then what happens is what C122 says of the files taken.", "quantifier": "all command lines (tokens shorter than 2^63 - 4), repeated flags and file names with blanks included, all files, all numbers", "why_tests_cant": "Command lines and files are unbounded; the outcome depends on the order and repetition of arbitrarily many flags and on the words of arbitrary file names.", "anchors": ["src/tools/main.cpp: main", "src/libcatnip/io/io.cpp: prepareParser, prepareParameters, fileExist", "src/libcatnip/io/argumentparser.cpp: parse", "src/libcatnip/io/arguments/argumentfile.cpp"]}
{"id": "C125", "title": "No int overflow anywhere in calc_J's calculation on small inputs", "statement": "If each of the six files calc_J reads holds at most 46340 basis functions, orbitals, orbital energies per spin and atoms, then no int operation overflows in anything calc_J does after reading: building the matrices of coefficients, energies and coordinates, searching for matching atoms, exchanging blocks of rows and columns, choosing the orbitals asked for (any int numbers) and computing the coupling. The outcome - numbers, exception, exit or hang - is exactly that of a program with unbounded integers. With more than 46340 energies of the dimer no answer is given: the size of a matrix overflows.", "quantifier": "for all command lines, all file systems and all contents of files", "why_tests_cant": "overflow is undefined behaviour and depends on sizes no test reaches; every intermediate value of every loop must be bounded for all inputs at once", "anchors": ["src/tools/main.cpp:80-171", "src/libcatnip/matrix.cpp:249-298", "src/libcatnip/matrix.cpp:865-891", "src/libcatnip/qc_functions.cpp:139-180", "src/libcatnip/qc_functions.cpp:330-414", "src/libcatnip/qc_functions.cpp:417-763"]}
{"id": "C126", "title": "Matching of coordinates in the machine's arithmetic", "statement": "double_tos(f, nd) computed with rounded multiplication and division (any rounding with relative error at most 10^-8; doubles have 10^-16) returns, for nd <= 9 and magnitudes below 10^6 units of 10^-nd, a numeral for f rounded to nd decimals up to the error of one multiplication. Unless f is within that error of a tie, the text is the one of exact arithmetic, so two numbers have the same text exactly if they agree to nd decimals; numbers with the same text have the same sign and differ by at most 10^-nd, up to that error. matchCol pairs columns accordingly. For nd from 10 to 308 the conversion to int is undefined behaviour, beyond out_of_range is thrown.", "quantifier": "all numbers below 10^6 units, all precisions nd >= 0, all roundings with at least eight digits, all matrices with such entries", "why_tests_cant": "tests try a few numbers; the guarantee concerns all doubles, including those next to a tie, and the rounding errors of two operations", "anchors": ["src/libcatnip/matrix.cpp:double_tos", "src/libcatnip/matrix.cpp:Matrix::matchCol"]}
{"id": "C127", "title": "Files that change or cannot be opened while calc_J runs", "statement": "Suppose the files change while calc_J runs: between parsing the command line and reading each of the six files any file may appear, vanish, be replaced, or be present but impossible to open. Then calc_J does exactly what the description of every command line says, where each of the six files counts as it is when its turn comes; a file that is there but cannot be opened counts as an empty one, one that has vanished gives invalid_argument. Nothing else about the files matters. If nothing changes and everything can be opened the run is the one of the other claims. Numbers are printed only if each file was there and could be opened. If the dimer's log file is there but cannot be opened, and the other five are read, there is no error: the behaviour is undefined (the overlap matrix is taken through a pointer that was never set).", "quantifier": "all command lines, all file systems at each of the seven moments, all contents", "why_tests_cant": "tests use files that do not change and can be opened; the claim ranges over all ways in which other processes interfere", "anchors": ["src/tools/main.cpp:main", "src/libcatnip/io/file_readers/filereader.cpp:FileReader::read", "src/libcatnip/io/file_readers/filereader.cpp:FileReader::open", "src/libcatnip/io/file_readers/filereader.cpp:FileReader::fileExist_"]}
{"id": "C128", "title": "Everything calc_J writes to standard output, on every command line", "statement": "Whatever the command line and the files are, what calc_J writes to standard output is exactly this. First an empty line and a line with the version, and this is always seen, however the run ends and even if it never ends. Then, while the command line is read, the answers to the requests for information that come before the first mistake and before the version is asked for, in their order: usage line and help text, or the citation. If no argument is given, the usage line and the help text, and then an exception. If the command line is understood, the names of the six files, in a fixed order; when all files have been read, everything needed was found in them, the sizes agree and the atoms were put in order, the spins and the two orbitals; when the coupling has been computed, the five numbers. A run that fails at some stage has written exactly what belongs to the stages before. The help text consists of the word Options: and, for each flag, its name, abbreviation and description. After a normal end and after exit everything written is seen (followed by a diagnostic if the status is not 0); if an exception ends the run, what was written after the last flush (end of the version line, of a help text, of the orbitals) may be lost. Writing does not influence the result of the run.", "quantifier": "all command lines, all file systems and file contents, all texts of version and citation", "why_tests_cant": "ranges over all command lines and files, including those whose run fails at any stage or never ends", "anchors": ["src/tools/main.cpp:main", "src/libcatnip/io/argumentparser.cpp:ArgumentParser::parse", "src/libcatnip/io/argumentparser.cpp:ArgumentParser::showUsage", "src/libcatnip/qc_functions.cpp:TransferComplex::calcJ", "src/libcatnip/qc_functions.cpp:calculate_transfer_integral"]}
{"id": "C129", "title": "Copies of a matrix share their storage, yet calc_J computes as if they did not", "statement": "A copy of a matrix shares its numbers with the original, and assigning to either deletes them for both. For every command line and all files, calc_J's calculation nevertheless gives exactly the outcome (the five numbers, or the same failure) it gives if each matrix is a value of its own. It never reads, writes or deletes storage that was deleted; at the end no matrix points to deleted storage, and storage was deleted exactly four times: that of the two rows of coefficients and of the two zeta matrices when they were assigned.", "quantifier": "all command lines, all file systems and file contents, all numbers", "why_tests_cant": "aliasing and lifetime of storage on every path of the program, for matrices of every size; a test cannot show that no input makes two matrices interfere", "anchors": ["src/libcatnip/matrix.cpp:Matrix::operator=", "src/libcatnip/matrix.hpp:Matrix", "src/libcatnip/qc_functions.cpp:TransferComplex::calcJ", "src/libcatnip/qc_functions.cpp:TransferComplex::unscramble", "src/libcatnip/qc_functions.cpp:calculate_transfer_integral", "src/tools/main.cpp:main"]}
{"id": "C130", "title": "The library's calculation leaves its inputs intact, and how much storage it leaks", "statement": "calculate_transfer_integral, TransferComplex::calcJ and TransferComplex::unscramble, called with matrices any of which may share storage with each other or with matrices elsewhere, answer as for independent matrices and leave every matrix that existed before the call as it was. Any number of calls of calcJ on one complex therefore answer each as if it were alone. Each successful calcJ allocates 28 blocks (counterpoise) or 32 and deletes 4; calculate_transfer_integral allocates 22 or 26 and deletes 2; unscramble allocates 3(|basisP|+1) blocks, and |basis2|+1 more with counterpoise, and deletes none.", "quantifier": "all matrices and all ways their storage may be shared, all orbitals asked for, all sequences of calls", "why_tests_cant": "ranges over all sharing between existing matrices and all call sequences", "anchors": ["src/libcatnip/qc_functions.cpp:calculate_transfer_integral", "src/libcatnip/qc_functions.cpp:TransferComplex::calcJ", "src/libcatnip/qc_functions.cpp:TransferComplex::unscramble", "src/libcatnip/matrix.cpp:Matrix::operator="]}
{"id": "C131", "title": "Which exception a parser throws at a command line it does not accept", "statement": "Whatever flags, arguments and options an ArgumentParser was given, and whatever it has parsed before, parse throws exactly in these cases. Without any argument: runtime_error. Otherwise it throws at the first thing that is wrong: an integer beyond int gives out_of_range; a number std::stod does not read gives the exception of std::stod; any other value the options of the flag do not allow (bounds, length, choices, extension, missing file) gives invalid_argument; a flag at the end without its value gives runtime_error; a switch followed by something that is not a flag, and anything in the place of a flag that is not a flag with an argument, give invalid_argument. If nothing is wrong but a file that must exist was not named: runtime_error. What precedes the first mistake, and what follows it, has no influence. Every command line is as expected, asks for the version, or is refused with exactly one exception.", "quantifier": "all parsers reachable through the API, all command lines, all file systems", "why_tests_cant": "ranges over all parser configurations and all token sequences", "anchors": ["src/libcatnip/io/argumentparser.cpp:ArgumentParser::parse", "src/libcatnip/io/argumentparser.cpp:ArgumentParser::parseArg_", "src/libcatnip/io/argumentparser.cpp:ArgumentParser::postParseCheck_"]}
{"id": "C132", "title": "The number is the coupling in the dimer's Fock matrix after Loewdin orthogonalisation", "statement": "Whenever the dimer orbitals are a full orthonormal set (as many as basis functions, C S C^T = 1) that solve the Roothaan equations F C = S C E of some matrix F, the numbers calculate_transfer_integral computes are J_ab = <a|F|b>, e_a = <a|F|a>, e_b = <b|F|b>, S_ab = <a|S|b> of the two monomer orbitals expanded in the dimer basis, whichever way the orbitals were chosen; the same holds of the numbers printed by every run of calc_J that ends normally. For every pair with S_ab^2 < 1 there is exactly one symmetric positive definite X with X O X = 1 (O the 2x2 overlap), and the number returned is the off-diagonal element of X H X. For normalised monomer orbitals S_ab^2 <= 1, and the denominator 1 - S_ab^2 is zero only if the two orbitals are the same up to sign. If the dimer has just two orbitals in which the monomer orbitals are normalised, (E1 - E2)^2 = 4 J^2 + (e_a - e_b)^2 / (1 - S_ab^2), so that for equal site energies the coupling is half the splitting.", "quantifier": "all fields (ordered fields and the real numbers where order or roots are needed), dimensions, monomer and dimer coefficients, overlap matrices, energies, Fock matrices, files and command lines", "why_tests_cant": "tests compare with a handful of reference numbers; that the sums mean a matrix element of an operator is a statement about all bases and all dimensions", "anchors": ["src/libcatnip/qc_functions.cpp: calculate_transfer_integral", "src/tools/main.cpp: main"]}
{"id": "C133", "title": "No int overflows while the files are read", "statement": "For every text of at most 700000000 characters whose tables stay within 46340 rows and columns (a pun file whose coefficient tables are at most 46340 x 46340; a log file in which no 46341 consecutive lines start with 1, 2, 3, ...), reading it with every int operation checked gives exactly what reading it with unbounded integers gives, whatever that is; every text of at most 23170 characters is of this kind. Hence, if the log files list at most 46340 energies, atoms and basis functions, every run of calc_J that ends - with numbers, an exception or an exit status - does so without a single int operation leaving the range of int, from the command line to the report. If no file has more than 23170 characters, nothing else need be known: whatever is in the files and whatever the command line is, no run of calc_J that ends overflows an int. The limits are sharp: with checked ints a log file is only read to its end if the overlap matrix has at most 46340 rows, and a pun file only if every coefficient matrix has at most 2147483647 elements.", "quantifier": "all files, file names, command lines and numbers of passes; log readers that never end (they count atoms for ever) are excluded", "why_tests_cant": "overflow is silent in most builds and needs files of a size no test contains; that nothing below the limit overflows is a statement about all files", "anchors": ["src/libcatnip/io/file_readers/logreader.cpp: AOFunctionSectionReader, OverlapSectionReader, ReadOrbEnergies", "src/libcatnip/io/file_readers/punreader.cpp: ReadCoef, readGausCoefLine", "src/tools/main.cpp: main"]}
{"id": "C134", "title": "What an argument parser holds after a call that threw", "statement": "A setter of an argument parser that throws leaves the parser exactly as it was. A command line that is refused does not: the flags before the mistake keep the values they were given (the last value of each), a switch followed by a setting such as OFF keeps that setting, and every other value is as before; flags, arguments and options are as before, except that a file argument remembers having seen an existing file, even if its path was refused for its extension. In other words the parser is as if it had been given the beginning of the command line alone. Afterwards it accepts exactly the command lines it would have accepted before, except that a file that must exist need no longer be named once an existing path was looked at for it, so that such a flag may end up without a value; and what C89-C92, C102, C106 and C131 say of parsers holds for it, too.", "quantifier": "all parsers reached by any history of calls, including calls that threw, in which every flag has one argument; all command lines; all file systems, also different ones for the first and the second command line", "why_tests_cant": "the state left behind depends on where in an arbitrary command line the mistake is, and on the whole history of the parser; tests check that it throws", "anchors": ["src/libcatnip/io/argumentparser.cpp: parse, parseArg_, addFlagArg, setFlagArgOpt", "src/libcatnip/io/arguments/argumentobject.hpp: checkValid_, setArgPropertyOpt", "src/libcatnip/io/arguments/properties/propertyfileexist.cpp: propValid"]}
{"id": "C135", "title": "Copies of an argument parser share their arguments, not their values", "statement": "In a program with any number of ArgumentParsers, some of them made or overwritten by copying others, a call does to the parser it is made on what it would do to a parser of its own, and every parser is one of the parsers the other claims are about. A copy shares with the original the arguments of the flags that had one when it was copied: whatever is done to either, these two have the same options and the same memory of files seen for good - so setting an option of one changes what the other accepts - unless one of them is assigned to, or a double argument is added again (which exchanges it). Arguments added later are never shared. Flags, values, defaults, and which flags have arguments, change only by calls on the parser itself and by assigning to it; a parser that shares nothing with the one called is exactly what it was. Constructing, copying and assigning allocate no argument object, a call allocates one or none (addFlagArg that succeeds, and setFlagArgOpt for a flag that has no such argument, also if it throws), and no argument object is ever freed.", "quantifier": "all sequences of constructions, copies, assignments and calls (also calls that threw) on any number of parsers; all flags, options, values, command lines and file systems", "why_tests_cant": "which objects are shared is decided by the whole history of copies, assignments and additions over arbitrarily many parsers; a test looks at one copy and one call", "anchors": ["src/libcatnip/io/argumentparser.hpp: ArgumentParser (maps of pointers; implicit copy constructor, assignment and destructor)", "src/libcatnip/io/argumentparser.cpp: addFlagArg, setFlagArgOpt, parse, parseArg_, getFlagArgOptValue"]}
{"id": "C136", "title": "The coupling does not depend on the choice of basis functions", "statement": "Describing the same pair in other basis functions does not change the result: if the overlap matrix is that of linear combinations of the old functions and every orbital's coefficients give the same orbital, calculate_transfer_integral prints and returns the same numbers. With the counterpoise correction any combinations are allowed (also another number of functions); without it, those that combine functions of the same monomer only - which includes any order, sign and normalisation of the functions of each monomer. Exact arithmetic.", "quantifier": "all fields, all sizes, all transformations of the functions (square or not), all orbitals, overlaps and energies", "why_tests_cant": "it is an identity about all matrices of numbers; a test compares two literals", "anchors": ["src/libcatnip/qc_functions.cpp: calculate_transfer_integral"]}
{"id": "C137", "title": "The coupling does not depend on the choice of the dimer's orbitals", "statement": "Listing the dimer's orbitals in another order, with other signs, or with another orthonormal choice among orbitals of the same energy - any orthogonal mixing of orbitals of equal energy, with the energies listed accordingly - does not change what calculate_transfer_integral prints and returns. Exact arithmetic.", "quantifier": "all fields, all sizes, all orthogonal mixings of orbitals of equal energy, all monomer orbitals, overlaps, energies, with and without counterpoise", "why_tests_cant": "it is an identity about all matrices of numbers; a test compares two literals", "anchors": ["src/libcatnip/qc_functions.cpp: calculate_transfer_integral"]}
{"id": "C138", "title": "The coupling is half a difference of mean energies, so at most half the range of the dimer's energies", "statement": "For monomer orbitals that are normalised in the dimer's orbitals and S_ab^2 not 1, calculate_transfer_integral returns half the difference of the mean energies of their sum and their difference. The site energies it prints are never outside the range of the dimer's orbital energies, the overlap is between -1 and 1, and the coupling is at most half the range (for S_ab^2 = 1 the division by zero counts as zero here). The bounds also hold of the numbers printed by every run of calc_J that ends normally. Exact arithmetic.", "quantifier": "all (ordered) fields, sizes, orbitals, overlaps and energies; for calc_J all command lines and file systems", "why_tests_cant": "it is an identity about all matrices of numbers; a test compares two literals", "anchors": ["src/libcatnip/qc_functions.cpp: calculate_transfer_integral", "src/tools/main.cpp: main"]}
{"id": "C139", "title": "Monomers that do not interact have coupling zero", "statement": "Without the counterpoise correction: if no function of one monomer overlaps a function of the other, and every dimer orbital is on one monomer, or the dimer's orbitals are a full orthonormal set solving the Roothaan equations of a matrix with no elements between the monomers (orbitals of equal energy may then be spread over both), calculate_transfer_integral prints J_ab = S_ab = 0 and returns zero. Exact arithmetic.", "quantifier": "all fields, sizes, orbitals, overlaps, energies and matrices F", "why_tests_cant": "it is an identity about all matrices of numbers; a test compares two literals", "anchors": ["src/libcatnip/qc_functions.cpp: calculate_transfer_integral"]}
{"id": "C140", "title": "One TransferComplex, called again and again", "statement": "Whatever sequence of unscramble and calcJ calls is made on a TransferComplex, with any arguments, and whether they return or throw: the coefficients of monomer 1, the numbers of orbitals, the energies and the counterpoise choice stay what they were, without counterpoise also the coefficients of monomer 2; all matrices keep their dimensions, so the constructor's checks hold for good; calcJ changes nothing, so questions may be asked in any order and any number of times with the same answers; calcJ writes its warning exactly if unscramble was never called - a call that threw silences it too (calc_J: exactly if one of the log files has no populations). unscramble throws only invalid_argument: without counterpoise exactly if the dimer's coordinates have another number of rows than those of a monomer, and then the call may be repeated with other arguments as if it had not been made; with counterpoise if monomer 2's have (then nothing has changed), or the dimer's have - then monomer 2 is already unscrambled and the dimer is not, and repeating the call gives another coupling. unscramble changes nothing if the atoms are in order; otherwise a second equal call may rearrange the atoms again, so that another coupling results.", "quantifier": "all sequences of calls with all arguments, all complexes; for calc_J all command lines and file systems", "why_tests_cant": "an invariant of all call histories, and the state at every point at which a call can throw; tests make one unscramble call that returns, then one calcJ", "anchors": ["src/libcatnip/qc_functions.hpp: TransferComplex", "src/libcatnip/qc_functions.cpp: TransferComplex::TransferComplex, TransferComplex::unscramble, TransferComplex::calcJ", "src/tools/main.cpp: main"]}
{"id": "C141", "title": "Files with Windows line ends", "statement": "When the line ends of a file are changed from LF to CR LF: reading a punch file in which no line lacks exactly one character to consist of fields of 15 gives the same coefficients, throws the same exception, or never ends, as before (a last field that lacks one character is left out before and read after the change); reading a log file without overlap table and populations gives the same positions, energies and HOMO levels, the same failure, or never ends, as before; but a log file with CR LF never gives an overlap matrix or basis function counts, whatever tables it has: if it has one of these tables and could be read before, reading it throws invalid_argument. So every calc_J job that gives a coupling ends with invalid_argument instead when the line ends of the pair's log file are changed. (Tables that consist of a title only, or whose first row is the very end of the file or lists no population, excepted.)", "quantifier": "all texts, file names, command lines and file systems", "why_tests_cant": "a relation between the outcomes for two versions of every file; the test files have LF only", "anchors": ["src/libcatnip/io/file_readers/logreader.cpp: LogReader::OverlapSectionReader, LogReader::AOFunctionSectionReader", "src/libcatnip/io/file_readers/punreader.cpp: PunReader::ReadCoef, PunReader::readGausCoefLine", "src/libcatnip/io/file_readers/filereader.cpp: FileReader::read", "src/tools/main.cpp: main"]}
{"id": "C142", "title": "Files that are cut off", "statement": "What a file that ends too early does. Every beginning of a text is the text cut off in one of its lines. If the cut is in a line outside the tables (that announces none in what is left of it), the file is read and gives exactly the tables before it, and nothing shows that there were more. Punch files: if the cut is right after a line end, within a table, while an orbital lacks coefficients (has not as many as the one before), or in a line that announces a table and still does, reading never ends; if it is in a line of coefficients of an orbital that is not the first, what is left of that line is read again and again, and if that comes out even, the file is accepted, with the coefficients of the last orbital filled up with copies: the matrix may have all its rows and columns and a wrong coefficient. Log files: in a table of positions or populations whose closing line is cut off, the file is not accepted; after at least one line of energies, it is accepted with the energies so far (and of what is left of the last line), so the HOMO level may be another one and the last energy another number; in the overlaps, right after a line end: before the first row invalid_argument, after k rows of the first block a k x k matrix, behind the first block a matrix of full size in which every entry that was cut off is 0, with the listed entries as in the whole file.", "quantifier": "all texts, places of the cut, file names and file systems; for each, what the text says up to the table that is cut", "why_tests_cant": "a cut can be at any character of any file; the tests read whole files only", "anchors": ["src/libcatnip/io/file_readers/filereader.cpp: FileReader::read", "src/libcatnip/io/file_readers/punreader.cpp: PunReader::ReadCoef", "src/libcatnip/io/file_readers/logreader.cpp: LogReader::readOrbEnergies, LogReader::OverlapSectionReader, LogReader::CoordSectionReader, LogReader::AOFunctionSectionReader"]}
{"id": "C143", "title": "The splitting of the dimer's levels", "statement": "What the numbers have to do with the dimer's level splitting, for monomer orbitals that are normalised in the dimer's orbitals (exact arithmetic). If only two of the dimer's orbitals, with energies E1 and E2, have a part of them, then 4 J_eff^2 + (e_a - e_b)^2 / (1 - S^2) = (E2 - E1)^2 unless S^2 = 1; so with equal site energies J_eff is half the splitting (up to the sign), the rule of thumb that calc_J replaces; and the two site energies and the coupling, after Loewdin's orthogonalisation, form a matrix whose eigenvalues are exactly E1 and E2. With any number of orbitals the left hand side is at most (hi - lo)^2 if the energies of the orbitals that have a part lie between lo and hi (if S^2 = 1, J_eff = 0 and e_a = e_b), and site energies and coupling are bounded as in C138. The same for every run of calc_J that ends normally, with the tables of the files.", "quantifier": "all matrices, energies and sizes over any field (any ordered field, for the bounds), both modes; all runs of calc_J", "why_tests_cant": "an identity and an inequality between all entries of all matrices; tests compare a few numbers", "anchors": ["src/libcatnip/qc_functions.cpp: TransferComplex::calculate_transfer_integral", "src/tools/main.cpp: main"]}
{"id": "C144", "title": "How errors in the files change the numbers", "statement": "How much the printed numbers change when the tables do (exact arithmetic). A constant added to all the dimer's energies leaves the coupling as it is (and is added to the site energies), for monomer orbitals that are normalised in the dimer's. Energies that are off by at most d change site energies and coupling by at most d. If the monomer orbitals (their projections) are off by at most e in length, too, and the energies lie between lo and hi, the overlap changes by at most 2e, the site energies by at most d + e (hi - lo), the coupling by at most d + 5 e (hi - lo) / (1 - S^2). The tables need not be normalised: if the normalised orbitals that are meant have energies of size at most B and the tables are within e and d of them (numbers rounded when they were printed), then with h = e (2 + e) the overlap is off by at most h, the other numbers by at most h B + d (1 + h), and the coupling by at most (h B (5 + 2 h) + d (1 + h)(2 + h)) / (1 - S^2) where S is the overlap printed; if each coefficient of the monomers is within k, e is K k for K functions. The same for the tables of runs of calc_J that end normally.", "quantifier": "all tables, sizes, errors over any ordered field, both modes; all (pairs of) runs of calc_J", "why_tests_cant": "bounds for all errors of all entries; tests compare a few files", "anchors": ["src/libcatnip/qc_functions.cpp: TransferComplex::calculate_transfer_integral", "src/tools/main.cpp: main"]}
{"id": "C145", "title": "The printed numbers are the true ones up to a bound that can be computed", "statement": "Rounded tables and rounded arithmetic together: let normalised orbitals and energies of size at most B be meant, let the numbers in the machine stand for them up to e in length and d in energy (they were rounded when they were printed and when they were read), let every operation of the machine have a relative error of at most u (floating point without overflow and underflow), and let the projections computed with all signs made positive have squares that sum up to at most L (M (P N z t c)^2 will do for coefficients at most z and c and overlaps at most t in size). Then, with h = e (2 + e) and r = (1 + u)^(4P+4N+3M+15) - 1 for P and N basis functions and M dimer orbitals, the printed overlap differs from the true one by at most h + r L, site energies and J_ab by at most h B + d (1 + h) + r L (B + d), and J_eff by at most (h B (5 + 2h) + d (1 + h)(2 + h))/w + D + u (t/w + D), where t = L (B + d)(1 + L), D = r t (w + 1 + L^2)/w^2 and w = 1 - (|S| + r L)^2 - r (1 + L^2) > 0 is computed from the overlap S that is printed. Also from the command line and the files to what calc_J prints, in both modes.", "quantifier": "all tables, sizes, errors, arithmetics with a relative error, jobs of calc_J", "why_tests_cant": "bounds for all roundings of all entries and operations; tests compare a few files with recorded output", "anchors": ["src/libcatnip/qc_functions.cpp: TransferComplex::calculate_transfer_integral", "src/libcatnip/matrix.cpp: Matrix::operator*", "src/tools/main.cpp: main"]}
{"id": "C146", "title": "Every run that ends normally prints the machine's numbers for its tables", "statement": "Whatever the arguments, the files, the conversions and the arithmetic (no law of arithmetic is assumed): if calc_J ends normally, it understood its arguments, found and read all six files, and the five numbers it prints are exactly those the machine's + - * / yield, in one fixed order of operations, for the orbitals asked for, from the overlap matrix, coefficients and energies the readers found (after the dimer's atoms were matched, if all log files have populations). Hence, with a relative error of u per operation, they are those of exact arithmetic for these tables up to the accumulated error, and those of any normalised orbitals and energies the tables are close to up to the bounds of C145.", "quantifier": "all command lines, file systems, arithmetics, conversions of texts to numbers, that let calc_J end normally", "why_tests_cant": "ranges over all inputs on which the program ends normally, including files Gaussian would not write, and over all arithmetics", "anchors": ["src/tools/main.cpp: main", "src/libcatnip/qc_functions.cpp: TransferComplex::calculate_transfer_integral", "src/libcatnip/qc_functions.cpp: TransferComplex::calcJ"]}
{"id": "C147", "title": "A number that is none is never lost", "statement": "Let some numbers of the machine be bad in the sense that every sum, difference, product and quotient with a bad operand is bad (as for the not-a-number of IEEE arithmetic). If one of the coefficients of the orbital asked for of monomer 1 is bad, then the printed J_ab, energy of monomer 1, overlap and J_eff are bad; if one of those of monomer 2 is, then J_ab, energy of monomer 2, overlap and J_eff; if any overlap or any coefficient of any dimer orbital is bad, all five numbers; if any dimer energy is bad, all but the overlap. So J_eff never looks right when a number it should depend on is none. For the function on matrices and for every run of calc_J that ends normally.", "quantifier": "all arithmetics, all sets of bad numbers that spread, all tables, positions of the bad number, runs of calc_J", "why_tests_cant": "the bad number may be anywhere in tables of any size; a test places it somewhere", "anchors": ["src/tools/main.cpp: main", "src/libcatnip/qc_functions.cpp: TransferComplex::calculate_transfer_integral", "src/libcatnip/qc_functions.cpp: TransferComplex::calcJ"]}
{"id": "C148", "title": "What the printed numbers depend on", "statement": "Two runs of calc_J that end normally and whose tables agree in the mode, the sizes of the bases, the coefficients of the two orbitals asked for, all coefficients and energies of the dimer's orbitals and all overlaps print the same five numbers bit for bit, in any arithmetic: the other orbitals of the monomers, their number, the position of the orbital asked for, the energies of the monomers beyond the HOMO level, the names and the order of everything else in the files do not matter. The same for two transfer objects.", "quantifier": "all arithmetics, all pairs of command lines, file systems and tables", "why_tests_cant": "a test compares one pair of runs; that nothing else influences the result is a statement about all pairs", "anchors": ["src/tools/main.cpp: main", "src/libcatnip/qc_functions.cpp: TransferComplex::calcJ", "src/libcatnip/qc_functions.cpp: TransferComplex::calculate_transfer_integral"]}
{"id": "C149", "title": "The monomers exchanged, in the machine's arithmetic", "statement": "With counterpoise, if addition and multiplication of the machine are commutative, exchanging the two monomers exchanges the two printed energies and leaves the overlap bit for bit; if multiplication is associative as well, J_ab and J_eff are the same too (they are not in doubles). In an arithmetic with bounded relative rounding errors the five numbers of the job with the monomers exchanged are, exchanged back, within the error bounds guaranteed for the original job of the true values, with and without counterpoise, for the function on matrices (blocks of basis functions exchanged) and for command lines over the same files.", "quantifier": "all arithmetics with the stated laws, all tables, file systems and pairs of command lines that differ by exchanging the monomers", "why_tests_cant": "symmetry up to rounding is a statement about all inputs and all rounding errors; a test compares two outputs for one input", "anchors": ["src/tools/main.cpp: main", "src/libcatnip/qc_functions.cpp: TransferComplex::calculate_transfer_integral"]}
{"id": "C150", "title": "Counterpoise and plain calculation compared", "statement": "If the orbitals asked for in a counterpoise job have the coefficients of the plain job on the functions of their own monomer and zero on the functions of the other, and the dimer's coefficients, energies and overlaps are the same, the counterpoise job prints the five numbers of the plain job bit for bit, in any arithmetic: for the function on matrices and for any two runs of calc_J that end normally. In exact arithmetic, if the coefficients differ from those by at most k each (normalised orbitals, overlaps of size at most 1, K basis functions), the overlaps differ by at most 2 K k, the site energies by at most K k times the range of the dimer's energies and the couplings by at most 5 K k times that range over 1 - S^2.", "quantifier": "all arithmetics, all tables, pairs of runs of calc_J; all ghost coefficients for the bound", "why_tests_cant": "a relation between two runs for all inputs, with a bound over all perturbations", "anchors": ["src/libcatnip/qc_functions.cpp: TransferComplex::calculate_transfer_integral", "src/libcatnip/qc_functions.cpp: TransferComplex::calcJ", "src/tools/main.cpp: main"]}
{"id": "C151", "title": "Orbitals that are one up to the sign: zero divided by zero", "statement": "For monomer orbitals that are normalised in the dimer's orbitals, the divisor 1 - S_ab^2 of the effective coupling is zero exactly if the two orbitals are equal or opposite on every dimer orbital; then the two site energies agree, J_ab is plus or minus this energy and the dividend is zero as well. In any arithmetic, a counterpoise calculation asked for the same orbital as orbital of both monomers gives J_ab and both energies as one number, bit for bit; if the overlap comes out as exactly 1 and 0/0 is no number, the effective coupling is no number. calc_J prints it and ends normally: for all runs.", "quantifier": "all arithmetics, all tables, all runs of calc_J that end normally", "why_tests_cant": "an equivalence over all pairs of orbitals of any length; tests can only try some", "anchors": ["src/libcatnip/qc_functions.cpp: TransferComplex::calculate_transfer_integral", "src/libcatnip/qc_functions.cpp: TransferComplex::calcJ", "src/tools/main.cpp: main"]}
{"id": "C152", "title": "What calc_J reads", "statement": "What calc_J does depends on nothing in the file system but the files asked for: those given for the six input flags, and next to the last file given for a companion flag the candidates with the extensions tried (.orb, .7, .pun, or .log). Of these only the existence matters while the command line is read and the parameters are prepared, and of the contents only those of the six files then taken. If no name contains white space, two directories that agree on the files asked for give the same run - the same numbers, the same error, the same exit status, the same hang - whatever else lies in them; on a command line that is not understood the files do not matter at all.", "quantifier": "all command lines, all pairs of file systems, all numbers of passes of the reading loops", "why_tests_cant": "Independence of every other file is a statement about pairs of arbitrary file systems.", "anchors": ["src/tools/main.cpp: main", "src/libcatnip/io/io.cpp: prepareParameters", "src/libcatnip/io/arguments/properties/propertyfileexist.cpp: propValid", "src/libcatnip/io/arguments/properties/propertysisterfile.cpp: propValid", "src/libcatnip/io/file_readers/filereader.cpp: read"]}
{"id": "C153", "title": "Two descriptions of the same pair", "statement": "Two jobs that describe the same pair of molecules print numbers that belong together. The descriptions may differ in the basis functions (any linear combinations in which all orbitals can still be written, of the same or another number), in the counterpoise correction, in the signs of the two monomer orbitals, in the choice of the dimer's orbitals (order, signs, orthogonal mixing of orbitals of equal energy) and in the unit and the zero of the energies, all at once. Then the site energies are those of the first job in the new unit from the new zero, overlap and coupling have the sign of the two orbitals' signs, J_ab is converted likewise with c times the overlap added, and the effective coupling is only converted to the new unit: the zero of the energies does not matter. (Another zero takes monomer orbitals normalised in the dimer's orbitals.) For the function on matrices and for any two runs of calc_J that end normally. Exact arithmetic.", "quantifier": "all matrices of all sizes, all changes of basis functions and dimer orbitals, all units and zeros; all pairs of runs of calc_J that end normally", "why_tests_cant": "The changes of basis and of orbitals form continuous families of any dimension, and they combine.", "anchors": ["src/libcatnip/qc_functions.cpp: TransferComplex::calculate_transfer_integral", "src/libcatnip/qc_functions.cpp: TransferComplex::calcJ", "src/tools/main.cpp: main"]}
{"id": "C154", "title": "Lines of the files that belong to no table do not matter", "statement": "Gaussian writes much else into its files, and users add comments. If to any number of punch and log files lines are added that announce no table (nor list energies), any number of them in any number of places that are not within a table, then whatever comes of reading such a file before comes of it after: the same matrices, energies, occupation numbers, coordinates and basis function counts, the same exception, or no end; and calc_J does the same on every command line: the same parameters and report, the same exception or exit status, or never ends. (What the files say otherwise does not matter: they may be no good.) In particular a heading may be put before any file.", "quantifier": "all texts of the files, all lines added, all places, all command lines", "why_tests_cant": "A test adds a line somewhere. That no such line anywhere, before or after any contents, good or bad, changes anything needs an argument about all texts.", "anchors": ["src/libcatnip/io/file_readers/filereader.cpp: FileReader::read, startSection_", "src/libcatnip/io/file_readers/punreader.cpp: PunReader::ReadCoef", "src/libcatnip/io/file_readers/logreader.cpp: LogReader::CoordReader, AOFunctionReader, ReadOrbEnergies, OverlapReader", "src/tools/main.cpp: main"]}
{"id": "C155", "title": "The names of the files do not matter", "statement": "Files may be moved, renamed or copied. If two command lines, each with its own set of files, ask for calculations with the same orbitals (spins, types, numbers, counterpoise), and each of the six files the one takes has the same contents as the corresponding file the other takes (and either both or neither has a name that can be opened), then the same comes of both: the same numbers in the report (the report names the files of its own command line), the same exception, the same exit status, or neither ends. How the files are found - given by name in any directory, or next to their companion - and how the options are written does not matter, whatever the files contain.", "quantifier": "all pairs of command lines and sets of files, all contents, good or bad", "why_tests_cant": "There are unboundedly many names, directories and contents; a test moves a few files.", "anchors": ["src/tools/main.cpp: main", "src/libcatnip/io/io.cpp: prepareParameters, prepareParser", "src/libcatnip/io/file_readers/filereader.cpp: FileReader::read, fileExt_, fileExist_"]}
{"id": "C156", "title": "Several calculations in one file", "statement": "Outputs are often joined: a log file of several linked jobs, or files appended to one another. If the output of an earlier calculation, whose last table is complete, stands in front of a punch or log file (a log file that does not begin with a line of energies), then reading gives what both say: of two tables of a kind (the coefficients or energies of a spin, the coordinates, the overlaps) the later one, and where only the earlier calculation has one, that; of the basis functions all that either lists. If the second file cannot be read, or is never read to its end, the same is true of the two together. So if the later calculation has all that the earlier one has, and the same basis functions are listed, calc_J does on every command line just what it does with the later calculation alone.", "quantifier": "all texts, any number of files with an earlier calculation in front, all command lines", "why_tests_cant": "What stands in front and what comes after are arbitrary texts; a test joins two files.", "anchors": ["src/libcatnip/io/file_readers/filereader.cpp: FileReader::read", "src/libcatnip/io/file_readers/punreader.cpp: PunReader::ReadCoef", "src/libcatnip/io/file_readers/logreader.cpp: LogReader::CoordReader, AOFunctionReader, ReadOrbEnergies, OverlapReader", "src/tools/main.cpp: main"]}
{"id": "C157", "title": "The order of the sections of a file does not matter", "statement": "Suppose a punch or log file consists of sections, each complete in itself, and a last part: each section alone is read to its end, no table running on, and (of a log file) neither a section nor the last part begins with a line of energies. If no two sections have a table of the same kind (the coefficients or energies of one spin, the coordinates, the overlaps; basis functions may be listed in several), then the file with the sections in any other order is read with the same result: readers that give the same coordinates, energies, levels, overlaps, coefficients and numbers of basis functions, or the same failure, or no end. So calc_J does on every command line the same with the sections of any of its files in another order.", "quantifier": "all texts of any number of sections, all permutations, all command lines", "why_tests_cant": "The sections, their number and the permutation are arbitrary; a test tries one order.", "anchors": ["src/libcatnip/io/file_readers/filereader.cpp: FileReader::read, startSection", "src/libcatnip/io/file_readers/punreader.cpp: PunReader::ReadCoef", "src/libcatnip/io/file_readers/logreader.cpp: LogReader::CoordReader, AOFunctionReader, ReadOrbEnergies, OverlapReader", "src/tools/main.cpp: main"]}
