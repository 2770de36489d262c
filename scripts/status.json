{
 "C07": [
  "partial",
  "False of the code for copy construction (implicit copy constructor shares the buffer): C07_refuted_write/_resize/_general. Proved for every program built from construction, Matrix_copy, operator=, writes and resizes without copy construction (C07_independent_partial); self assignment is C07_self_assign."
 ],
 "C14": [
  "partial",
  "False of the code for non-square matrices: set_col compares the vector's length with cols (C14_refuted, C14_tall_throws). Proved for square matrices. The behaviour on every shape is the separate claim C93."
 ],
 "C15": [
  "partial",
  "Rows: proved without restriction (C15_swap_row). Columns: false of the code for non-square matrices, where swap_col always throws or ends the process (C15_swap_col_refuted); proved for square ones."
 ],
 "C17": [
  "partial",
  "False of the code when the number of rows grows: the whole matrix becomes 0 (C17_refuted, for all matrices). Proved when it does not grow, and that negative numbers are refused. The outcome for every shape is C94."
 ],
 "C18": [
  "partial",
  "False of the code: shrinking a matrix of two or more rows writes outside the buffer (C18_shrink_overflow), growing loses everything (C18_grow_refuted). Proved for an unchanged number and for one-row matrices that shrink. The outcome for every shape is C94."
 ],
 "C19": [
  "partial",
  "False of the code: same defects as C18 for shelves. Proved for an unchanged number and for 1 x 1 matrices that shrink. The outcome for every shape is C94."
 ],
 "C21": [
  "partial",
  "False of the code for non-square matrices (C21_refuted_tall, C21_refuted_wide, for all such matrices). Proved for square ones; invalid columns are refused for every shape. The outcome for every shape and number is C93."
 ],
 "C25": [
  "partial",
  "False of the code: an atom matched to itself and a later atom matched to the same one loop forever (C25_refuted). Proved: the scheduling ends whenever targets are shared only outside the positions being filled, in particular for all lists without repetitions, whatever the number of unmatched atoms."
 ],
 "C26": [
  "partial",
  "False of the code for every input it speaks about: an unmatched atom always leads to undefined behaviour or an endless loop and is never reported (C26_refuted, C26_refuted_one)."
 ],
 "C34": [
  "partial",
  "The checks the constructor does make are characterised exactly (C34_ctor). False of the code: other inconsistent dimensions pass and calcJ then terminates the process (C34_refuted_general: for all of them). Proved: consistent dimensions always complete."
 ],
 "C41": [
  "partial",
  "False of the code for every column of two or more energies, alpha or beta: the process ends (C41_refuted, C41_refuted_beta). Proved for square matrices, in particular single energies."
 ],
 "C47": [
  "partial",
  "False of the code for separators of two or more characters: find_last_of looks for any of the characters (C47_refuted_general). Proved for one-character separators, the only kind the program passes. The behaviour for every pattern is C96."
 ],
 "C50": [
  "partial",
  "False of the code for NaN, which every range accepts (C50_refuted). Proved for all other values. C50_always: exactly which values are accepted, NaN included."
 ],
 "C55": [
  "partial",
  "False of the code: once an existing file was seen, later missing ones are reported as existing (C55_refuted). Proved: FILE_DOES_EXIST is 1 exactly when some validated path existed; FILE_MUST_EXIST rejects missing files (C55_must). Its effect on calc_J: C124."
 ],
 "C57": [
  "partial",
  "False of the code: the argument calls the non-virtual base setter, so illegal values are stored (C57_refuted, C57_refuted_internal). Proved: unknown properties or options are rejected. An unknown property is rejected by every overload (C57_unknown_property_partial)."
 ],
 "C60": [
  "partial",
  "False of the code for -v / --version only (C60_refuted). Proved for all other flags, for whole command lines."
 ],
 "C61": [
  "partial",
  "False of the code: an explicit value after a switch is never accepted (C61_refuted, for all command lines). Proved: a switch alone turns it on."
 ],
 "C62": [
  "partial",
  "False of the code for every switch that was given: getInt 1, getStr OFF (C62_refuted). Proved for switches not given."
 ],
 "C64": [
  "partial",
  "Proved as an equivalence for file names without white space and file flags given at most once. False of the code otherwise (C64_refuted_blank, C64_refuted_repeated). What happens on every command line is C124."
 ],
 "C65": [
  "partial",
  "False of the code for .orb and .7 in general (C65_refuted); proved for .pun. What calc_J does with such names is C124."
 ],
 "C69": [
  "partial",
  "False of the code for four kinds of file (C69_refuted_*). Proved: reading ends for every file outside these kinds as stated in C69_log_partial and C69_pun_partial, in particular for every well-formed file."
 ],
 "C70": [
  "partial",
  "The exact set of accepted names is C70_accepted_partial. False of the code for names with a further dot and with trailing blanks."
 ],
 "C72": [
  "partial",
  "Proved for at most five energies per line (all Gaussian prints) and for longer lines that do not have nine blank-separated words; false of the code for the others (C72_refuted)."
 ],
 "C73": [
  "partial",
  "Proved for tables of more than five columns, and for smaller ones followed by a blank line or a line that starts with an integer; false of the code for small tables followed by another line (C73_refuted)."
 ],
 "C76": [
  "partial",
  "Proved for well-formed pun files; false of the code for a file whose last table has a single orbital, which is never read to its end (C76_refuted)."
 ],
 "C77": [
  "partial",
  "Proved if another line stands between the two tables; false of the code when the Beta table follows immediately (C77_refuted), as in Gaussian's output."
 ],
 "C78": [
  "partial",
  "Proved if tables agree and labels are unique per atom; otherwise false of the code (C78_refuted_labels, C78_refuted_tables)."
 ],
 "C80": [
  "partial",
  "False of the code for two causes (C80_refuted_overlap, C80_refuted_atom). Proved, for arbitrary command lines and file contents: these are the only causes of undefined behaviour (C80_causes_partial), and the readers have none (C80_readers). C122_undefined says exactly when it happens."
 ],
 "C81": [
  "partial",
  "Proved for numbers below 10^6 units of the last decimal and apart from the sign of zero (C81_same_partial, C81_matchCol_partial); false of the code for the others (C81_refuted_zero, C81_refuted_large)."
 ],
 "C83": [
  "partial",
  "Proved for matrices of one shelf; C83_always gives the text for every matrix; false of the code for several shelves, where shelf 1 is printed each time (C83_refuted_shelves)."
 ],
 "C84": [
  "partial",
  "Proved within the matrix; false of the code outside, where nothing is checked (C84_refuted). C84_always: exactly what happens for every row and column."
 ],
 "C85": [
  "partial",
  "Proved when every flag has an abbreviation; false of the code otherwise (C85_refuted_long, C85_refuted_hang). The width limit is false even for calc_J's own flags (C85_refuted_width); proved: at most 80 characters and one word. C85_always: what happens for every parser - exactly when printing never ends, and otherwise exactly which words the text has."
 ],
 "C87": [
  "partial",
  "Proved for the orbital types; false of the code for the spin flags (C87_refuted_spin)."
 ],
 "C91": [
  "partial",
  "Proved for integer, text, switch and file arguments (C91_int_partial, C91_text_partial, C91_texts_partial); false of the code for double arguments, whose options can be set but never read (C91_refuted_double). What happens with double arguments instead: C91_double."
 ],
 "C92": [
  "partial",
  "Proved for integer, text, switch and file arguments and unknown kinds; false of the code for double arguments (C92_refuted_double). What happens with double arguments instead: C92_double."
 ]
}