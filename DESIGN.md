# Formal model of JoshuaSBrown/QC_Tools (catnip / calc_J) in Lean 4

## 1. Trusted base

* **Lean 4.33.0's kernel**, and Mathlib (imported one file at a time: `ring`, `linear_combination`, finite sums, `Fin` vectors).
* **Axioms.** Every theorem named in MANIFEST.json depends on a subset of `propext`, `Quot.sound`, `Classical.choice` (3 on none, 20 on
  `propext` only, 46 on `propext` and `Quot.sound`, the others on all three when last checked; `scripts/axioms.sh` prints the list).
  No axiom is added, no compiled evaluation is used. `decide +kernel` and the tactic `kernel_rfl` (Verif/CalcJ.lean; it closes `a = b` with
  `Eq.refl a`) leave the *whole* check to the kernel: they skip the elaborator's own check, they do not add trust. They are used for
  concrete computations only (the flag table of calc_J, sample files for non-vacuity).
* **The reading of the C++ source.** The model was written by hand from the text of `/repo`; nothing was compiled or run. Every model
  definition cites file and lines and says where it simplifies. The specifications (`lean/Verif/Spec/*.lean`) are small, separate and do not
  mention the model's helpers; a few of them use the model's data types (`Mat`, `Res`).

## 2. How C++ is modelled

* **Outcomes** (`Res`): `ok a | throw e | exit code | ub | diverge`. `throw` keeps the class of the standard exception, not its message.
  `exit` is `std::exit`. `ub` is undefined behaviour (heap access out of bounds, reading an uninitialised cell, dereferencing an end
  iterator, using a null pointer). `diverge` is an endless loop: loops whose termination is in question take a fuel argument; `Ends f out`
  says that all sufficiently large fuels give `out`, `Hangs f` that no fuel suffices. No result depends on the amount of fuel.
* **int** is mathematical `Int` (C113 and C125 say when a model with checked 32-bit arithmetic agrees); conversions between `int` and `size_t` are explicit where the code
  depends on them. `std::stoi` has the 32-bit range check.
* **double** is an arbitrary type `α`. Storage properties hold for every `α`, hence for IEEE doubles; algebraic ones (C10, C35-C40, C79, C88)
  are for exact arithmetic in a commutative ring or field. C99 and C100 hold for arbitrary operations `+ - * /` with no laws, hence for rounded
  arithmetic, and C101 under the laws of signs (`Machine.SignLaws`, the two zeros identified; instances: every field, and every symmetric
  rounding of the rationals). C105 bounds the rounding errors under the standard model of floating point (`Machine.Rounds`: every operation
  has relative error at most `u`, no overflow or underflow; instances: binary floating point with any number of digits). `pow(x, 2)` is modelled as `x * x`. The text of a number (`double_tos`) is a parameter in
  the matching code, and is modelled in addition for exact rationals with a sign bit (`DoubleTos.lean`, C81) and with a rounding after each operation (`TosMachine.lean`, C126).
* **Heap.** A Matrix is its dimensions and its buffer, a list of `Option α` cells (`none` = uninitialised). Aliasing made by the implicit copy
  constructor is modelled by an explicit heap of buffers (`Heap.lean`, C07). The rest of the
  model treats a Matrix as a value; C129 proves that on the path of calc_J this gives the same outcomes as the heap of buffers.
* **Strings** are lists of characters; `isspace` is that of the C locale on ASCII; the statements use the classes of Spec/Chars.lean, which
  are written down independently of the model.
* **Files.** For the argument code the file system is a predicate "exists"; for the readers a file is its text (a list of characters) and the
  stream state is the rest of the text with the end-of-file and fail bits, so that `getline`, `eof`, `tellg/seekg` behave as in C++.
* **std::map / std::set** are lists in iteration order; **std::sort** is a relation (any sorted permutation). Virtual functions are records
  of functions. Objects are not used any further after they threw (the caller lets the exception through), except where a theorem says so: C134 for the argument parser and its arguments (ArgLeft.lean), C123 for the readers, C140 for `TransferComplex` (TransferLeft.lean).

### Modelled

| source | model |
|---|---|
| matrix.hpp, matrix.cpp | Matrix.lean, Print.lean (`operator<<`), DoubleTos.lean (`double_tos`), Heap.lean (objects and buffers) |
| qc_functions.cpp | QC.lean, QCTransfer.lean (TransferComplex, calculate_transfer_integral), Output.lean (what calc_J writes) |
| string_support.cpp | Strings.lean |
| parameters.hpp, parameters.cpp | Parameters.lean |
| io/arguments/properties/* | Properties.lean |
| io/arguments/* | Arguments.lean, ArgOptions.lean |
| io/argumentparser.cpp | ArgParser.lean, ArgLeft.lean (with the state left by a throw), Usage.lean (`showUsage`) |
| io/io.cpp | IO.lean (flags, prepareParser), Prepare.lean (prepareParameters) |
| io/file_readers/* | Readers.lean, LogReader.lean, PunReader.lean |
| tools/main.cpp | Main.lean |

### Not modelled

Overflow and underflow of floating point, NaN/infinity in matrices (NaN in C50 only); overflow of `int` is checked in C113 and C125 (the calculation) and C133 (the readers; the parser computes with `size_t` only), and ignored elsewhere, so a log file on which the reader hangs is said to hang although its atom counter would overflow in the end; exhaustion of memory; leaks and
`delete` instead of `delete[]`; destructors (those of the argument and property classes delete the properties and the option values - argumentobject.hpp:53-80, propertyobject.hpp:49-55 - but the parser never deletes its arguments (C135), and calc_J copies none; all others are empty or default); LOG output (log.hpp; LOG_LEVEL is 0), standard error (except the warning of `calcJ`, C140), and
the diagnostics the matrix code writes with `printf` right before `exit(1)` (all else calc_J writes to standard output is modelled: C82, C128; `operator<<` of matrices: C83); text of exceptions; state of an object after it threw (unless stated); pun lines of
2^31 characters or more; file names of 2^32 characters or more (`(int)found` in string_support.cpp:62, 74); `isspace` of bytes above 127; files that change while the command line is parsed or while they are being read (paths that exist but cannot be opened, and files that change, appear or vanish between the moments at which calc_J looks at them, are the subject of C127; everywhere else `fsOf` says a path exists exactly if it has contents); the locale; output buffers other than `std::endl` as a flush (C128; the text of `showUsage` counts as written at once, at its end); the formatting of a `double` by `operator<<` (a parameter `print`); `removeSpace(std::string)`,
which is declared but defined nowhere; the build system and the tests.

## 3. Properties

"Refuted" means: a theorem shows that the code violates the property as a user would state it; beside it stands a `_partial` theorem with
the largest class of inputs for which it was proved, and often a further claim that gives the behaviour on *every* input.

| id | model | proof |
|----|-------|-------|
| C01-C03 | `Mat`, `set_elem`, `get_elem` with bounds checks | index injectivity, induction over write histories |
| C04 | the seven constructors | generic "loop of writes" lemma |
| C05, C06 | `resize` with its five loops, `operator=` | same lemma |
| C07 | buffers behind pointers; shallow copy constructor | refuted for the copy constructor; simulation invariant for programs without it |
| C08, C09, C11, C12 | loops of `set_elem(get_elem)` | loop lemma |
| C10 | triple loop | loop lemma + finite sums |
| C13-C16 | `set_row/get_row/set_col/get_col/swap/move` | loop lemma, loop invariant; C14, C15 (columns) refuted for non-square, partial for square |
| C17-C19 | `set_rows/set_cols/set_shel` | refuted + partial for the cases that work; all cases: C94 |
| C20, C21 | `getRow/getCol` | C21 refuted for non-square + partial; all cases: C93 |
| C22, C23 | `matchRow/matchCol` with arbitrary printing function | loop invariant |
| C24-C26 | pair lists, refresh of the swap order, executing swaps on a list | invariant on the composition of swaps; C25, C26 refuted + partial |
| C27, C28 | split / merge | induction over block sizes |
| C29-C31 | unscramble | composition of C24 and C27, index permutation as spec |
| C32-C34 | row selection and dimension checks of TransferComplex | case analysis; C34 refuted + partial |
| C35-C40 | calculate_transfer_integral over a field | matrix lemmas, finite sums |
| C41 | findRank | column bug: refuted + partial |
| C42-C47 | string helpers | list induction; C47 refuted for patterns of two or more characters; all patterns: C96 |
| C48 | Parameters setters | invariant over histories |
| C49-C57 | property objects | case analysis; C50 (NaN), C55, C57 refuted + partial |
| C58-C67 | argument parser, calc_J registration, prepareParameters | relation `Reads` of command lines, induction over tokens; C60, C61, C62, C64, C65 refuted + partial |
| C68-C78 | reader framework, log and pun readers on text | fuel-indexed loops, induction over lines; C69, C70, C72, C73, C76, C77, C78 refuted + partial |
| C79 | main | composition: files -> matrices -> reordering -> coupling |
| C80 | main on arbitrary files | `Safe` combinators through every function; refuted for two causes, which are shown to be the only ones |
| C81 | `double_tos` | text of a rounded rational determines it; refuted for large numbers and negative zero |
| C82 | the report printed by calcJ | shape of the text, independent grammar |
| C83, C84 | `operator<<`, `get_elem_ptr` | loop lemma; refuted + partial |
| C85, C86, C87 | `showUsage`, parser construction, offered values | word lists are preserved; of several declarations the last in dictionary order (`C86_last`); refuted + partial |
| C88 | calc_J on two job sets | permutation of blocks of the dimer; C79 twice |
| C89-C92 | options of arguments, through ArgumentObject and ArgumentParser | invariant over histories; C91, C92 refuted for double arguments |
| C93, C94, C96, C97, C98 | complete outcome tables | case analysis over the loops |
| C95 | removeSpace, isAlphabetical, trimming | list induction |
| C99, C100 | calc_J with arbitrary arithmetic | the loops of `operator*` compute a stated sequence of operations; reordering is exact |
| C101 | the same under laws of signs | induction over the sums |
| C102 | ArgumentParser with arbitrary flags | induction over the command line, effect of one flag on the maps |
| C103, C104 | main from the command line | C59 + C64 + C99; the parameters are a function of what is said |
| C105 | rounding errors of calc_J | forward error analysis by induction over the sums |
| C106 | ArgumentParser::parse, setFlagArgOpt | exact characterisation: induction over the tokens with the rules kept as an invariant; `Fine`/`Acceptable` in Spec/Accepts |
| C107 | refreshSwapOrder, unscramble_* on arbitrary match lists | invariant: each pending entry is where its request `Leads` through those served; clash characterised in Spec/Schedule |
| C108 | all programs over objects and heap (all constructors, copies, derived matrices, writes, resizes, assignments) | simulation between heap and `World` (names, Spec/Heap), one lemma per statement, induction over the program |
| C109 | findRank, getCol on all dimensions | case analysis on the shapes, loop invariant for the ranked column |
| C110 | TransferComplex constructor and calcJ | `request` (Spec/Transfer) as an independent reading of a request; case analysis, then C34/C35 |
| C111 | all loops of the readers, main | outcome is monotone in the number of passes allowed (flat order), by induction over each loop |
| C112 | all loops of the readers, main | measure: room left in the stream; once the end of the text is met the control state repeats, so a loop has ended or never will |
| C113 | `Verif.Ints`: the same matrix functions, `calculate_transfer_integral` and `calcJ` with every int operation checked to fit 32 bits | each intermediate value is bounded by the number of elements; dimensions carried through the loops; sharp limit by computing the size of the diagonal matrix |
| C114 | `splitStEnergies` of the log reader on any line, `cutMinus` in Spec/Energies | induction on the loop that cuts a word at its minus signs; the pieces are characterised without recursion |
| C115 | all section readers of both readers on arbitrary text | one invariant of the reader (`LogInv`, `Spins`) kept by every section reader, then `read_safe` |
| C116 | splitMatrixIntoList, mergeListOfMatrices for arbitrary block lists | loop invariant over the list of blocks; first misfit by append decomposition |
| C117 | coordReader on arbitrary text, with lines as successive getline calls deliver them (the last one repeated for ever) | invariant relating stream state and line number; induction over the rows; coinductive argument for the endless case |
| C118 | the reading loop and all section readers of log files (LogReader, Readers) | relational induction: two runs over the same text that differ in what was known before stay related (same stream, same outcome, data related by 'over'); the first part is consumed table by table, then fuel monotonicity (C111) for the endless case |
| C119 | the whole of PunReader and the reading loop (PunReader, Readers); specification: numbered lines, no stream (Spec/PunLines) | the state of the stream is related to a line number (refinement), induction over the lines of an orbital, the orbitals of a table and the tables of a file; trichotomy by induction on the lines left |
| C120 | logreader.cpp and filereader.cpp, all readers of a .log file, on arbitrary text; Spec/LogLines states what the numbered lines say (`Says`, `Fails`, `Endless`) and what the getters give (`Gives`) without mentioning the reader | line-by-line simulation with the stream invariant `Here`/`At` (LogLinesA-C), induction over `Says`/`Fails`/`Endless`, trichotomy by induction on the remaining lines; fuel monotonicity for the endless case |
| C121 | qc_functions.cpp unscramble_Coef / unscramble_S (both overloads); Spec/Unscramble says which exchanges serve the requests, where the blocks are afterwards and what the matrix holds | refinement: every exchange of blocks is a permutation of columns, induction over the exchanges; the failures by case analysis, termination by C107 |
| C122 | the whole program from the command line to the report on arbitrary files; Spec/Run says what reading a file comes to (`PunFile`, `LogFile`, from the line specifications of C119/C120) and what is done with it (`calcJ`, `outcome`), without matrices, readers or parsers | every reader comes out as specified (C119, C120 as simulation), the getters give the tables (`Tab`, `Values`), matchRow/matchCol is `partners`, unscrambling by C121, orbital selection by C110, arithmetic by C99's machine report; `Does` covers ending and hanging, composed by `Comes.bind` over fuel-monotone readers; exact conditions for undefined behaviour and hanging by case analysis (`C122_edges`, `C122_undefined`) |
| C123 | The reader as an object with a stream that may be left open and a position that survives a call (Reread.lean) | What is known after a history is an inductive relation over what each text says (C119, C120); induction over the history, with an invariant for the position: after a non-empty text it is lost or the end of the text |
| C124 | The whole run calcJRun: command line, choice of files, parameters, reading, calculation | The command line loop is followed to its first mistake (parse_exactly); the choice of files is a relation (Takes) proved total and unique; then C122; both directions of the equivalence from totality and uniqueness |
| C125 | `Verif.IntsJob`: the vector constructors, matchCol, split/exchange/merge, unscramble, the complex and main's calculation with every int operation checked | loop invariants on dimensions; requests stay in the range of the matches; sizes of blocks sum to the number of basis functions; the rest of the bounds from C115 and the constructor's checks |
| C126 | `double_tos` with a rounding after each operation, `%g` of an arbitrary rational, the range of `int tens` | a number close to one of six digits prints the same six digits; reduction to C81 away from ties |
| C127 | `Verif.Changing`: main with a separate view of the files for the command line and for each of the six reads; `stat` and `open` answer independently | reading at a moment is reading what the file seems to contain; then the description of every command line (C124) with six file systems instead of one |
| C128 | `Verif.Output`: main and parse with every write and flush, as a list of events beside the outcome (`Wrote`) | the parse loop against the inductive description `Shows`; `outcome` of C122 split where the orbitals are printed (`ready`, `finish`); then the cases of C124 |
| C129 | `Verif.HeapJob`: the path from the matrices held by the readers to the five numbers, with objects, blocks of storage, shallow copies and the deletions of operator= (`HM`, `calcJHeap`). Not covered: storage the readers leak, the first of the two blocks the vector constructor allocates, `delete` used for `delete[]`, the heap after an exception | simulation against the value model with the invariant `Good` (objects, their matrices, which of them share, how many blocks were allocated and freed), function by function |
| C130 | the functions of `Verif.HeapJob` from an arbitrary sound heap | the lemmas of C129 started from an arbitrary heap; induction on the list of calls |
| C131 | the parser of C106 | `Refuses`, an inductive description of the first mistake; induction on the command line, totality of `Fine`/`AsksVersion`/`Refuses` |
| C132 | `transferReport`, `calculateTransferIntegral`, `calcJRun`; Spec/Fock: `sandwich`, `Orthonormal`, `Roothaan`, `fockReport`, `Loewdin` | square matrices over a field: a left inverse is a right inverse, so the projections resolve the identity; 2x2 algebra for Loewdin; sum of squares for the bound |
| C133 | `Ints.readLog`, `Ints.readPun`, `Ints.wholeRun` (every int operation checked) beside the unbounded model; Spec/IntsRead: `ModestLog`, `ModestPun` | lock-step induction over the loops with the position in the text as a bound for every counter; monotony in the number of passes for runs of any length |
| C134 | ArgLeft.lean: `parse`, `argValid` and the setters again, each giving the object it leaves behind as well as the outcome (`Left`); Spec/ArgLeft: `Begins`, `Mistake`, `Seen`, `Rules`, `Alike`, `AllOrNothing`; `Reached`/`ParserReached` (C89 on) include refused calls | outcomes agree with `parse` stage by stage; induction over the acceptable beginning, case analysis of the mistake; properties of one argument have different names, so at most one setter acts |
| C135 | `ArgHeap.lean`: parsers in memory: argument objects in five lists, parsers with maps of addresses, every member function through the pointers; programs as sequences of deeds (Spec/ParserCopy). Destruction of a parser does nothing and is not modelled | simulation: an invariant (each address belongs to one flag and one kind) makes every member function commute with reading through the pointers, and frames all objects the parser has not; then induction over the program |
| C136 | `transferReport`, `calculateTransferIntegral`; Spec/Physics: `NewOverlap`, `SameOrbital`, `KeepsMonomers` | the projections of C82's closed form are the same numbers: exchange of finite sums |
| C137 | `transferReport`, `calculateTransferIntegral`; Spec/Physics: `Rechosen` | the sums over dimer orbitals are invariant: exchange of finite sums, orthogonality, equal energies |
| C138 | `transferReport`, `calculateTransferIntegral`, `calcJRun`; Spec/Physics: `Normed`, `meanEnergy`, `RangeMeaning` | algebra on C82's closed form; Cauchy-Schwarz as a sum of squares |
| C139 | `transferReport`, `calculateTransferIntegral`; Spec/Physics: `NoCross`, `Localised` | each term of the sums vanishes; for spread orbitals through C132 |
| C140 | `TransferLeft.lean`: `unscramble` with the outcome and the object it leaves, assignment by assignment; `warns`; Spec/TransferLeft: sequences of calls (`serve`, `servedAll`) | invariant over sequences of calls, C121 for dimensions and for which steps throw, C31 for atoms in order; concrete pairs for the negative parts |
| C141 | Spec/Crlf: `crlf`, the conditions `Ordinary`, `NeitherTable`, `NoneShort`, and when two readers give the same | lines, words and fields of the changed text (`CrlfLemmas`, `CrlfPun`, `CrlfLog`), inductions over what a text says (C119, C120), C122 for names and missing files |
| C142 | Spec/CutOff: `CutAt`, how far a text is read before a line (`Upto`, `Orbitals`), `Lower`, `lineOf` | locality: what is read before the cut depends on the lines before it only (`CutOffLemmas`, `CutOffPun`, `CutOffLog`), then what a text says (C119, C120) for the rest; concrete files in Props/CutOffEx |
| C143 | Spec/Split: `OnlyTwo`, `SplitAtMost`, `SplitExactly`, `SplitMeaning` | J as half the difference of mean energies (C138), Lagrange's identity for two orbitals, Cauchy-Schwarz with weights hi - E and E - lo for any number; Loewdin's matrix entry by entry (C132); for a run from C82's tables |
| C144 | Spec/Errors: `Near`, `CloseReports`, `CloseMeaning`, `Approximates`, `RoundedMeaning`; `TablesOf` | Cauchy-Schwarz for each sum of the report, linearity in the energies with C138's range, the difference of the quotients through the numerators (`coupling_num`); coefficients through completeness of the dimer's orbitals (C132); for a run from C82's tables |
| C145 | Spec/TotalError: `Tame`, `TrueUpTo` on top of C105's `Rounds` and C144's `Near` | the triangle inequality between C105 (machine against exact arithmetic on the same tables) and C144 (tables against what is meant); the sums of C105's bounds through `L`; the quotient through what is left of `1 - S²` (`jeff_step`) |
| C146 | Spec/MachineRun `MachineReport`, Spec/RunErrors `AccurateMeaning`, `TrueMeaning` | inversion of the run (each step that returns is peeled off; the tables the readers return have the shape their invariants say), then C99's formula; C105's and C145's bounds for any reading of the tables |
| C147 | Spec/Spoil: `Spoils`, `Spoiled`, `SpoilMeaning` | a dot product with a bad term is bad (induction over the sum); C146 for runs |
| C148 | Spec/Depends: `Agree` | C146 twice and the uniqueness of the values |
| C149 | Spec/Depends: `exchange`; C105's `Accurate` | rows of the dot products exchanged term by term; C105 for the exchanged job with the blocks of the basis exchanged (`DimerFiles.exchange`) |
| C150 | Spec/Ghosts: `Ghosts`; C144's `CloseReports` | the padded coefficient vectors agree term by term (C99, C146); C144 with the padded orbitals |
| C151 | Spec/Parallel: `ParallelMeaning`, `OneOrbital`, `UnitAt` | the length of b - S a is zero exactly if S^2 = 1 (equality in Cauchy-Schwarz); C99 and C146 with equal projections |
| C152 | Spec/Reads: `AsksFor` (the names given for an input flag and the candidates next to the companion's last file), `SameExist` | `Takes` (C124) transfers between file systems, C124_parameters on both; the readers only look at the files taken; without white space those are among the files asked for |
| C153 | Spec/SamePair: `SamePair`, `Converted`, `SamePairMeaning` | C136 and C137 at once on the projections, then the conversion of the four sums; runs through C82's tables (as C144) |
| C154 | Spec/Chatter: `Inserted`, `PunAdded`, `LogAdded`, `FilesAdded`, `SameReading` | what the text says (C119, C120) from a place on says the text with the lines before that place, shifted; up to the place the two texts are alike and no table ends before it differently; uniqueness (C119_one, C120_one) carries it back; C124 for calc_J |
| C155 | Spec/SameContents: `Wants`, `SameFile`, `SameJob`, `withParams` | what comes of reading depends on the contents only and is unique (C119_one, C120_one, C154's uniqueness); then C124 |
| C156 | Spec/Joined: `punAfter`, `logAfter`, `PunFirst`, `LogFirst`, `FilesJoined`, `LaterPun`, `LaterLog` | the first text is read as before (C154's `keep_upto`), the second one shifted (C154's `move_says`) and with the first one known; C124 for calc_J, which uses the number of functions only |
| C157 | Spec/Sectioned: `LogSection`, `PunRearranged`, `LogRearranged`, `FilesRearranged` | C156 section by section; what later sections say commutes when no two say it of the same table; the counts of basis functions depend on the set of functions only |

Later claims (C158 on) are described in properties.jsonl and MANIFEST.json.

## 4. Findings (places where the code does not do what a user expects), each with a theorem

1. The copy constructor of Matrix shares the buffer (C07); `resize` of a copy frees the original's storage.
2. `set_col`, `swap_col`, `getCol`, `move_col` take the number of columns for the number of rows (C14, C15, C21, C93).
3. `set_rows/set_cols/set_shel` lose everything when growing, write out of bounds when shrinking (C17-C19, C94).
4. `findRank` ends the process for every column of two or more energies (C41).
5. `operator<<` prints shelf 1 for every shelf (C83); `get_elem_ptr` checks nothing (C84).
6. Swap scheduling loops forever on shared targets (C25); an unmatched atom is undefined behaviour or an endless loop (C26, C80).
7. TransferComplex accepts dimensions on which calcJ then kills the process (C34).
8. `find_last_of` is used for `rfind` (C47, C96).
9. NaN passes every range (C50); FILE_DOES_EXIST is never reset (C55); options are set through the non-virtual base setter (C57).
10. `-v` and `--version` differ (C60); a switch never accepts a value (C61); `getStr` of a switch that is on says OFF (C62).
11. File names with blanks and repeated file flags break sister file resolution (C64); `.orb` and `.7` are advertised and rejected (C65).
12. Four kinds of malformed file hang the readers (C69); names with a further dot are rejected by the readers (C70).
13. Energy lines of nine words (C72), small overlap tables (C73), one-orbital pun tables (C76), an immediately following Beta table (C77),
    repeated labels and repeated population tables (C78) are misread.
14. Coordinates are compared as text: 0.0 and -0.0 differ, so do large numbers that agree to six digits in reverse (C81).
15. The help text hangs for flags without abbreviation (C85), offers values that are rejected (C87).
16. Double arguments can be added twice and their options cannot be read (C91, C92).
17. A refused command line leaves values behind (C134); copies of a parser share its arguments, and no argument is ever freed (C135).
18. `unscramble` called twice rearranges twice; with counterpoise an exception leaves half of it done; any call of it silences the warning (C140).
19. A log file with CR LF line ends cannot be used: the carriage return after the last number of a row makes `iss >> s` fail, and `stod("")` throws (C141).
20. A file that was cut off may be accepted: with a last orbital filled up with copies, fewer energies (another HOMO level), or overlaps that are zero (C142).
21. Orbitals that are equal up to the sign give 0/0 for the effective coupling; calc_J prints it without a warning and reports success (C151).

## 5. Wrong programs

`seeded/mutations.json` holds realistic edits of the model, `seeded/run.py` applies each to a scratch copy, rebuilds the whole project and
records which theorems fail; `seeded/LOG.jsonl` is the result, one line per attempt. A mutation that broke a claim without any theorem of
that claim failing led to a stronger theorem (field `tightened`).

## 6. The repository's unit tests, run on the model

`Verif/Tests/Matrix.lean` and `Verif/Tests/Args.lean` transcribe the assertions of `/repo/src/tests` that need no external data (test_matrix,
test_qc_functions, test_string_support, test_property*, test_argument*, test_argumentparser) and check that the model answers as the C++ tests
demand. They are bounded checks of the model's fidelity, not proofs of any claim, and no claim in MANIFEST.json names them. The tests that read
`GAUSSIANFILES` are not transcribed: those files are not in the repository.
