# Formal model of PyMCNP: design

PyMCNP reads and prints MCNP files with regular expressions. Almost every promise a user
relies on is one of: what is printed is read back as the same thing; every field of a text
reaches its own attribute; bad input fails with the documented error; object invariants hold
after any sequence of assignments; runs and exports do not disturb each other. The model is
built bottom-up from the Python operations the code uses.

| Lean modules (under `lean/Verif/`) | what they model | source under `/repo/src/pymcnp` |
|---|---|---|
| `Py/Str`, `Py/Err`, `Py/Lit` | Python `str` operations, exceptions as values, notation | Python library |
| `Py/Regex` | `re`: ordered backtracking matcher with groups, greedy and lazy repeats, look-behind, `\A`, `\Z`; `match`, `finditer`, `sub` | Python library |
| `Py/Decimal` | `decimal.Decimal`: from text, `str`, `adjusted` | Python library |
| `Py/Tmpl` | patterns made of literal texts and fixed-width fields | Python library |
| `Types/Number`, `Types/Scalar` | `Integer`, `Real`, `Horizontal`, `Zaid`, `Distribution`, `Index`, `Substance`, `Designator`, `String` | `types/*.py` |
| `Types/Geometry`, `Types/Lattice` | lexers, parsers, printers, composition, shapes | `types/Geometry.py`, `types/Lattice.py` |
| `Types/Lazy` | `Generator`, constructor of `Tuple` | `types/Generator.py`, `types/Tuple.py` |
| `Inp/Text`, `Inp/File` | pre- and postprocessing of cards and files, sections of a file | `inp/_symbol.py`, `inp/_card.py`, `Inp.py` |
| `Inp/Card`, `Inp/CardUnion`, `Inp/Value`, `Inp/Table*` | reading, construction and printing of every card, option and entry class: 679 classes, one table row each | `inp/_card.py`, `_option.py`, `_entry.py`, `types/Tuple.py`, `types/Union.py`, the class files |
| `State/*` | histories of assignments to inputs, cells and surfaces, with a heap | `Inp.py`, `inp/Cell.py`, `inp/Surface.py` |
| `Ptrac/*`, `Meshtal/*`, `Outp/*` | readers and printers, filters and processors | `ptrac/**`, `meshtal/**`, `outp/**`, `Ptrac*.py`, `Meshtal.py`, `Outp.py` |
| `Run/*` | batch runs as a transition system with arbitrary schedules; names and files of the command line | `Run.py`, `_cli/*.py` |
| `Props/*` | the property theorems, apart from helper lemmas | |

Files ending in `Spec` hold the vocabulary of the theorems: what entries, assignments of
entries to fields, readable values and so on are, written without the functions of the model.
Files ending in `Lemmas`, and `AssignMore`, `FlatRead`, `RoundTrip`, `FilePrint`, `FileRound`,
`FileSections`, `GeometryLex`, `GeometryGrammar`, `Kinds`, hold helper lemmas only. Beside
each property theorem there is an `example` with a non-trivial instance of its hypotheses.

Strings are `List Char`. Exceptions are values whose constructors name the exception class, so
"raises only the documented error" is a statement about a value.

Where the code violates a property, the negation is proved with a concrete witness (names
ending in `_violated`; several of them are universal), and the strongest true fragment that we
have is proved under a name ending in `_partial` (or as an exact characterisation). The
manifest lists both.

## Trusted base

* The kernel of Lean 4.33.0. No axioms are added; there is no `sorry`, `admit`,
  `native_decide` or `bv_decide`. By `#print axioms`, of the 510 theorems in the manifest, 434 depend on propext, Classical.choice and Quot.sound, 44 on propext and Quot.sound, 27 on propext only and 5 on none.
* The transcription of the Python text into Lean definitions. Every definition cites file and
  lines, and says what it leaves out.
* The table of card classes was written by a script that reads the class files as text. The
  patterns of the table are compared in Lean with the source text of `_REGEX`, transcribed in
  the table beside each class: a printer of patterns renders every row and the result must
  equal the source (`sources…_ok`, checked over the whole table by evaluation in the kernel).
  The conditions of the setters and the order of attributes are not compared that way.
* `/repo` was read as text. Once, a helper script was started from inside the source tree by
  mistake, and Python began to import `types/__init__.py` and `types/_type.py` from there in
  place of its own `types`; the import failed at once. The two bytecode files it wrote were removed;
  nothing was concluded from it, and no source file was changed.
* The semantics of the Python library as written in `Py/*` (`re`, `str`, `decimal`, `int`,
  format specifications, generators, dictionaries, `pathlib` names).

## What is simplified everywhere

* Character classes (`\d`, `\s`, `\S`) and letter case are ASCII.
* Limits of the `decimal` context (exponents beyond about 10^18, 28 digits in arithmetic),
  memory and recursion limits are not modelled. The depth of recursion of the parsers is
  unbounded.
* `float` values as arguments are not modelled, except where a definition says so.
* pandas, numpy, matplotlib, pyvista, docopt and their effects are not modelled; where a
  result is a table, the model gives its cells as texts.
* Operating system failures (full disk, permissions) are not modelled.

## Per property

For every property: status, how it is modelled and proved, the theorems with their module under `Verif/Props/` and their axioms (P = propext, C = Classical.choice, Q = Quot.sound, "-" = none), and what is missing or violated.

### C01 Real values survive print and parse exactly — proved

*Model and method.* `Real.from_mcnp`/`to_mcnp` with the three substitutions on exponents over the decimal model; induction on digit lists.

*Theorems.* Number: `C01_real_roundtrip` (PCQ).

### C02 Integer values survive print and parse — proved

*Model and method.* `Integer` likewise.

*Theorems.* Number: `C02_integer_roundtrip` (PCQ).

### C03 Parsing an integer never changes the number written — partial

*Model and method.* Negation by a witness; the fragment of whole-number texts by the digit lemmas.

*Theorems.* Number: `C03_integer_exact_partial` (PCQ), `C03_integer_exact_plain_partial` (PCQ), `C03_violated` (PCQ).

*Status.* Whole-number texts are read exactly; the full claim is false because fractional texts are truncated (C03_violated).

### C04 MCNP exponent spellings denote the same number — proved

*Model and method.* All spellings of an exponent are shown to give the same decimal as the standard one.

*Theorems.* Number: `C04_exponent_spellings` (PCQ).

### C05 Numeric parsing fails only with the documented error — partial

*Model and method.* Case analysis over every branch of the readers; the set of outcomes is characterised.

*Theorems.* Number: `C05_real_errors_partial` (PCQ), `C05_integer_errors_partial` (PCQ), `C05_violated` (PCQ).

*Status.* Holds for non-empty texts (integers: that are not inf/nan); false on the empty text and on inf/nan (C05_violated).

### C06 Horizontal shorthands survive print and parse — partial

*Model and method.* `Horizontal` reader and printer; case analysis over the five shorthands, digit lemmas for counts.

*Theorems.* Number: `C06_shorthand_roundtrip_partial` (PCQ), `C06_shorthand_stable` (PCQ), `C06_violated` (PCQ).

*Status.* Round trip for counts that are printed; false for zero counts, ILOG and negative factors (C06_violated).

### C07 ZAID round trip — proved

*Model and method.* Pattern and arithmetic of ZAIDs; round trip and uniqueness of the split.

*Theorems.* Scalar: `C07_zaid_roundtrip` (PCQ), `C07_zaid_stable` (PCQ), `C07_zaid_split` (PCQ).

### C08 Distribution reference round trip — partial

*Model and method.* The pattern keeps one digit: exact for one digit, negation beyond.

*Theorems.* Scalar: `C08_distribution_roundtrip_partial` (PCQ), `C08_distribution_first_digit` (PCQ), `C08_violated` (PCQ), `C08_violated_garbage` (PCQ).

*Status.* Round trip for one-digit distribution numbers; false beyond (only the first digit is kept, trailing garbage is accepted).

### C09 Constructed scalar types respect their documented ranges — proved

*Model and method.* Constructors as functions to results; both directions of the range conditions.

*Theorems.* Scalar: `C09_ranges` (PCQ), `C09_accepts` (P).

### C10 Index range round trip — proved

*Model and method.* Index ranges: text of two integers, split at the colon.

*Theorems.* Scalar: `C10_index_roundtrip` (PCQ).

### C11 Geometry text is stable under parse and print — proved

*Model and method.* Lexer and recursive descent parser of geometries against the printer: parsing the printed tree gives the tree, by induction on trees and token lists.

*Theorems.* Geometry: `C11_geometry_stable` (PCQ).

### C12 Geometry parsing follows MCNP precedence — partial

*Model and method.* Denotation of expressions into Boolean functions; a separate grammar says what MCNP means; agreement on the fragment, exact description of mixed levels.

*Theorems.* Geometry: `C12_precedence_partial` (PCQ), `C12_mixed_exact` (PCQ), `C12_violated` (PCQ).

*Status.* Holds for all texts that do not mix ':' and juxtaposition at one parenthesis level; false otherwise (C12_violated).

### C13 Composing geometries in Python preserves meaning when printed — partial

*Model and method.* Denotation of composed geometries, compared with the denotations of the operands.

*Theorems.* Geometry: `C13_compose_partial` (PCQ), `C13_intersect_partial` (PCQ), `C13_unite_partial` (PCQ), `C13_violated` (PCQ).

*Status.* Holds for '|' on all operands and for '&'/unary where no parentheses are needed; false otherwise (C13_violated).

### C14 Visualising a cell evaluates its geometry as a Boolean expression — partial

*Model and method.* Shapes are predicates on points; the shape built for a tree is compared with its denotation.

*Theorems.* Geometry: `C14_show_partial` (P), `C14_show_missing` (P), `C14_violated` (P).

*Status.* Holds for expressions without '#n' on a cell number; for '#n' the shape is the opposite (C14_violated).

### C15 Geometry parsing fails only with the documented error — partial

*Model and method.* The result of the parser on every text is characterised by its exception classes.

*Theorems.* Geometry: `C15_errors_partial` (PCQ), `C15_violated` (PCQ).

*Status.* Exact set of possible outcomes; AssertionError and IndexError do escape (C15_violated).

### C16 Lattice text is stable under parse and print — partial

*Model and method.* Lexer and parser of lattices; stability of the printed text by induction; `Path` gives the levels named.

*Theorems.* Lattice: `C16_lattice_stable_partial` (PCQ), `C16_violated` (PCQ); ?: `lattice_accepts` (PCQ).

*Status.* The code violates it: `1 2<3` prints as `1<2<3`, which is read as a different tree. Proved: printing is stable, the levels named are preserved, and left-nested trees are reproduced exactly.

### C17 Lattice index ranges of every mixture are accepted — partial

*Model and method.* All eight mixtures of index and index range, with arbitrary integers and blanks.

*Theorems.* Lattice: `C17_exact` (PCQ), `C17_mixtures_partial` (PCQ), `C17_violated` (PCQ).

*Status.* The code violates it: a single second index before a range third index raises AssertionError, for all integers. C17_exact decides all eight mixtures with arbitrary blanks.

### C18 Line wrapping loses no text — proved

*Model and method.* Induction on words: unwrapping the wrapped text gives the text.

*Theorems.* Text: `C18_wrap_roundtrip` (PCQ).

### C19 Printed lines respect the column limit — partial

*Model and method.* Invariant of the wrapping loop.

*Theorems.* Text: `C19_columns_partial` (PCQ), `C19_violated` (P).

*Status.* The true bound is 81 columns: continuation lines are indented by six blanks but counted as five; C19_violated shows an 81-column line.

### C20 Jump shorthand compression is lossless — partial

*Model and method.* Words are grouped into runs; collapsing and expanding are inverse on runs that are apart.

*Theorems.* Text: `C20_print_read_partial` (PCQ), `C20_expand_partial` (PCQ), `C20_violated` (PCQ), `C20_violated_print` (PCQ).

*Status.* Holds whenever no counted shorthand stands next to shorthand of the same letter; false otherwise (C20_violated).

### C21 Tabs and repeated blanks are insignificant — partial

*Model and method.* What the respacing substitutions do to any text of words and blank space.

*Theorems.* Text: `C21_spacing_partial` (PQ), `C21_spacing_words` (PQ), `C21_violated` (PCQ).

*Status.* Holds for blanks, continuation lines and '='; tabs are replaced after blank runs have been collapsed, so they do matter (C21_violated).

### C22 Inline comments survive a read-write cycle — partial

*Model and method.* Comments are collected in order; the printed card has none.

*Theorems.* Text: `C22_comments_collected_partial` (PQ); Card: `C22_violated` (PCQ).

*Status.* Comments are collected in order and do not affect the card text; printing a card never writes them back (see Card model).

### C23 Card and option round trip — partial

*Model and method.* Refinement: for a class made of a first word and scalar entries, the backtracking matcher on the text equals an assignment of words to fields (`flat_read`), whose uniqueness for printed values gives the round trip. Which classes qualify is decided over the whole table in the kernel.

*Theorems.* Card: `C23_card_exact_partial` (PCQ), `C23_option_exact_partial` (PCQ), `C23_card_partial` (PCQ), `C23_option_partial` (PCQ), `C24_violated` (PCQ), `C26_violated` (PCQ); ?: `native_count` (PCQ).

*Status.* For the 546 classes of a first word and scalar entries: read back unchanged iff the printed entries are assigned to their own fields (exact), and always when no unset field precedes a set one and lists stand last. Missing: the other 133 classes; false when fields are left out (C24) or lists precede optional entries (C26, C27).

### C24 Omitted positional entries do not shift later ones — partial

*Model and method.* Assignments of entries to optional fields (`assign`).

*Theorems.* Card: `C24_holes_partial` (PCQ), `C24_violated` (PCQ).

*Status.* For cards of optional entries of one type: read back unchanged iff no unset entry precedes a set one. The full claim is false (C24_violated).

### C25 Every field of a card text reaches its own attribute — partial

*Model and method.* As C23: the attribute of a field gets exactly the words assigned to it.

*Theorems.* Card: `C25_card_read_partial` (PCQ), `C25_option_read_partial` (PCQ), `C25_assign_all` (PQ), `C25_assign_some` (PCQ), `C25_violated` (PCQ).

*Status.* Proved for the 546 classes of a first word and scalar entries; false for M and FMULT, whose options are read from a wrong group (C25_violated).

### C26 Bin lists are not stolen by trailing flags — partial

*Model and method.* The assignment of entries to list and two optional flags.

*Theorems.* Card: `C26_last_two_partial` (PCQ), `C26_violated` (PCQ); Cosine: `C26_cosine_read` (PCQ), `C26_cosine_last_two` (PCQ).

*Status.* With three or more entries the last two are always the flags, so bounds are kept only when both flags are written; the claim is false (C26_violated).

### C27 Lists of cells and surfaces are not re-partitioned — partial

*Model and method.* The assignment for two lists in a row; for SSW the pattern itself: both lists are lazy repeats of the same word, so the first takes one number, and the second goes on until the options, since an option cannot begin with a number.

*Theorems.* Card: `C27_histp_partial` (PCQ), `C27_violated` (PCQ); Ssw: `C27_ssw` (PCQ), `C27_ssw_round` (PCQ), `C27_ssw_exact` (PCQ).

*Status.* HISTP: kept iff the history length is set or there are no cells. SSW: whatever the lists and options, the first number is read as the only surface and all others as cells, so a printed card is kept iff it has one surface. The property as stated is false (C27_violated).

### C28 Transformation cards are classified by their number of entries — partial

*Model and method.* The union of the transformation classes on every number of entries.

*Theorems.* Card: `C28_partial` (PCQ), `C28_violated` (PCQ).

*Status.* All transformation cards except eight entries with a system flag, which is read as nine entries (C28_violated). The union is restricted to the TR classes.

### C29 Keyword case is irrelevant — partial

*Model and method.* A relation between texts with the same letters up to case is carried through preprocessing, the regular expressions, the types, the tests and the constructors of the whole table; the table satisfies the decidable side conditions. Word by word the relation is carried through the entry-level specification of C25.

*Theorems.* Case: `C29_case_partial` (PCQ), `C29_words_partial` (PCQ), `C29_words_classes` (PCQ), `C29_violated` (PCQ); Card: `C29_keyword_case_partial` (PCQ).

*Status.* The code violates it: a number that begins with its exponent is read in lower case only (`nps e5`), the words `nd` and `no` likewise (C29_violated). Proved for every text of 149 data cards, cells, like-cells and surfaces: any change of case gives the same exception or the same object up to the case of its texts, if an `e` before a digit, sign or underscore stays. Word by word (545 classes, 103 data cards) only an `e` at the beginning of an entry has to stay: `E4 1E5` is read like `e4 1e5`.

### C30 Setting the history count is idempotent and local — proved

*Model and method.* Heap of card objects, operations as steps; invariant by induction over operation lists.

*Theorems.* State: `C30_set` (PCQ), `C30_idempotent` (PCQ), `C30_history` (PCQ), `C30_card` (PCQ).

*Status.* Cards are heap objects; any history of assignments, new cards, replaced data blocks. Booleans, infinite floats and NaN as arguments are not modelled.

### C31 Setting the random seed is idempotent and local — proved

*Model and method.* As C30, with options of the RAND card.

*Theorems.* State: `C31_set` (PCQ), `C31_history` (PCQ).

*Status.* Same heap model; includes rejected assignments.

### C32 Cells keep material and density consistent — partial

*Model and method.* Step relation of assignments; exact set of steps that keep the invariant, then induction over histories.

*Theorems.* CellState: `C32_step_partial` (PCQ), `C32_history_partial` (PCQ), `C32_violated` (PCQ).

*Status.* The code violates it: assigning the material never looks at the density. Proved: exactly which assignments keep the invariant.

### C33 Surface numbers stay in range — partial

*Model and method.* As C32 for surfaces.

*Theorems.* CellState: `C33_history_partial` (PCQ), `C33_violated` (PCQ).

*Status.* The code violates it: the number is unchecked when a transformation is attached. Proved for surfaces without one; transformation numbers always in 0..999.

### C34 Automatic numbers are unique — partial

*Model and method.* Counter model of automatic numbers; induction over constructions.

*Theorems.* CellState: `C34_automatic_partial` (PCQ), `C34_violated` (PCQ).

*Status.* The code violates it: the counter ignores explicit numbers. Proved: automatic numbers of a session are distinct.

### C35 An input file splits back into its own sections — partial

*Model and method.* Character-level analysis of the section pattern on preprocessed and printed files.

*Theorems.* File: `C35_sections_partial` (PQ), `C35_file_partial` (PQ), `C35_message_violated` (P), `C35_title_violated` (P), `C35_empty_violated` (P).

*Status.* Proved for files without a message whose title, cards and trailing text are made of words, for any number of cards, lines and words and any line wrapping. The claim is false with a message, for titles with blanks, =, & or a leading #, and for files with an empty block.

### C36 Importances given only as a data card are accepted — partial

*Model and method.* The constructor's check on cell lists, for every list; lists of texts too, each read as a comment, a `like` card or a cell.

*Theorems.* CellState: `C36_first_partial` (PCQ), `C36_texts` (PCQ), `C36_violated` (PCQ).

*Status.* The code violates it for every such input (C36_violated is universal); the partial theorem says exactly which cell lists the constructor accepts.

### C37 PTRAC history header (I line) round trip — partial

*Model and method.* Fixed-width fields: printing pads, reading strips; the `W.Pa` format of reals is modelled digit by digit.

*Theorems.* PtracLine: `C37_i_line_partial` (PCQ), `C37_zero_violated` (PCQ), `C37_short_violated` (PCQ).

*Status.* Proved for optional values other than zero, the last with six or more digits. The code violates it for zero (dropped) and for shorter decimals (the line is unreadable).

### C38 PTRAC event header (J line) round trip — partial

*Model and method.* As C37; the union of eight layouts is decided by widths.

*Theorems.* PtracLine: `C38_j_line` (PCQ); PtracEvent: `C38_event_partial` (PCQ), `C38_shadowed` (PCQ), `C38_event_violated` (PCQ).

*Status.* C38_j_line is the round trip of each of the eight classes. Through Event the claim fails: layouts 2, 4, 5 and 6 are read as the first layout of their width, and layout 6 then loses its decimals.

### C39 PTRAC coordinates (P line) round trip — partial

*Model and method.* As C37.

*Theorems.* PtracLine: `C39_values_partial` (PCQ), `C39_text_partial` (PCQ), `C39_short_violated` (PCQ), `C39_infinite_violated` (PCQ).

*Status.* Proved for decimals of five or more digits and for the text MCNP writes. The code violates it for shorter decimals and infinity.

### C40 PTRAC header blocks round trip — partial

*Model and method.* Lists in lines of fixed numbers of columns; induction over lines.

*Theorems.* PtracHeader: `C40_n_block` (PCQ), `C40_l_block_partial` (PCQ), `C40_l_violated` (PCQ), `C40_l_merge_violated` (PCQ), `C40_v_block_partial` (PCQ), `C40_v_block_same` (PCQ), `C40_v_violated` (PCQ).

*Status.* N blocks: all. L blocks: values of up to three characters, any length that is no multiple of thirty. V blocks: any nonzero multiple of ten. The code violates it for every other length and for ids of four digits.

### C41 Particle-track event types are tracked from event to event — proved

*Model and method.* Event types as a fold over events of a history of any length.

*Theorems.* PtracEvent: `C41_filter` (PQ), `C41_processor` (PQ), `C41_all` (PQ).

*Status.* Histories of any length.

### C42 Lazy sequences can be iterated any number of times — partial

*Model and method.* `Generator` as a state machine with a shared cache; any interleaving of any number of iterators, by an invariant.

*Theorems.* Lazy: `C42_partial` (PCQ), `C42_events` (PCQ), `C42_failing_violated` (PQ).

*Status.* Proved for every interleaving of any number of iterators when every element can be read, which C42_events shows for the events of a history. The code violates it when an element cannot be read: a second pass ends silently where the first raised.

### C43 Mesh tally rows round trip — proved

*Model and method.* Row pattern with optional columns; exact text.

*Theorems.* Meshtal: `C43_row_roundtrip` (PCQ), `C43_row_read` (PCQ).

*Status.* For every text that is read as a row.

### C44 Output file blocks are neither lost nor overwritten — partial

*Model and method.* The cutting of a file into pieces and the dictionary of blocks, for every text; tables as maps by tally number.

*Theorems.* OutpFile: `C44_blocks_kept` (PCQ), `C44_no_shadowing` (PCQ), `C44_one_class` (PCQ), `C44_blocks_there` (PCQ), `C44_tables_partial` (PCQ), `C44_tables_overwritten` (PCQ), `C44_tables_empty` (PCQ).

*Status.* That no block is lost, in both directions and for every text, and that no class takes the blocks of another is proved. The tables are proved for files whose tally numbers differ and whose subtallies have lines; the code violates the claim otherwise: a tally in the file twice is overwritten, a subtally without lines raises ValueError. The conversion of the fields to float is the subject of C103.

### C45 Batch runs call hooks in a fixed order whatever the process timing — proved

*Model and method.* Transition system of a run with an arbitrary schedule of process ends; invariant over traces.

*Theorems.* Run: `C45_order` (PQ), `C45_after_exit` (PQ), `C45_exits` (PQ), `C45_returns` (PQ), `C45_failure_abandons` (PQ).

*Status.* For every schedule of process ends and of other programs, by an invariant of the transition system. C45_failure_abandons shows what the claim leaves open: when a hook or a directory raises, the processes started so far are left running and no further hook is called.

### C46 Run directories never collide — proved

*Model and method.* As C45 with any number of runs and other programs; names of directories as functions of time.

*Theorems.* Run: `C46_directories` (PQ), `C46_files` (PCQ), `C46_own_directory` (PCQ), `C46_same_directory` (PQ), `C46_names` (PCQ), `C46_same_second` (PQ).

*Status.* Runs that proceed have different directories. A second run in the same second raises FileExistsError before it writes anything (C46_same_directory, C46_same_second). The hooks are taken not to create directories or files of the run themselves.

### C47 Per-tally output files never collide — partial

*Model and method.* `Path.with_suffix` and the names built from tally identifiers; exact description of collisions.

*Theorems.* Cli: `C47_partial` (PQ), `C47_collisions` (PQ), `C47_no_point` (P), `C47_zero_violated` (-), `C47_plot_violated` (-), `C47_directory_violated` (-).

*Status.* Proved for identifiers that do not end in zero; C47_collisions says exactly which pairs collide. The code violates it for numbers that differ by zeros at the end, for plots, and for paths whose only point is in a directory.

### C48 Variant selection is deterministic and first-match — partial

*Model and method.* `unionParse` as a loop over classes: first match in definition order, and which errors leave it.

*Theorems.* Card: `C48_option_union_partial` (PCQ), `C48_card_union` (PCQ), `C48_card_union_fails` (PCQ), `C48_violated` (PCQ).

*Status.* First-match is proved; errors that are not library errors escape from the union (C48_violated).

### C49 Lists never contain unset elements — partial

*Model and method.* Constructor of `Tuple` and the sharing of the caller's list.

*Theorems.* Lazy: `C49_partial` (PQ), `C49_built` (P), `C49_alias_violated` (PQ).

*Status.* Proved for tuples and text. The code violates it for lists: the object keeps the caller's list, so None appended afterwards appears in it.

### C50 Event type codes are faithfully mapped — proved

*Model and method.* The dictionary of codes, for every text.

*Theorems.* PtracLine: `C50_event_codes` (PQ), `C50_event_codes_refuse` (PQ).

*Status.* Every text.

### C51 Substance round trip — proved

*Model and method.* Substances: the table of names.

*Theorems.* Scalar: `C51_substance_roundtrip` (PCQ).

### C52 Particle designators are kept verbatim — proved

*Model and method.* Designators: every accepted text is kept.

*Theorems.* Scalar: `C52_designator_verbatim` (PCQ), `C52_designator_accepts` (PCQ), `C52_symbols` (PCQ).

### C53 Lattice parsing fails only with the documented error — partial

*Model and method.* The result of the lattice parser on every text, by exception classes.

*Theorems.* Lattice: `C53_errors_partial` (PCQ), `C53_violated` (PCQ); LatticeCard: `C53_card_violated` (PCQ).

*Status.* The code violates it: groups in parentheses raise AssertionError, unclosed ones IndexError. Proved: no other escape, and none without parentheses and brackets.

### C54 Separate tally bins stay separate — partial

*Model and method.* Universal negations: printing of two bins, then reading; and every accepted tally card with a list of cells, in any spacing, read into a single bin (regular expression of the card, tokens and grammar of the expression).

*Theorems.* Lattice: `C54_violated` (PCQ); LatticeCard: `C54_card_violated` (PCQ); TallyCells: `C54_cards_merged` (PCQ); TallyFile: `C54_file_merged` (PCQ), `C54_one_bin_partial` (PCQ); TallyPlain: `C54_plain_partial` (PCQ).

*Status.* The code violates it for every pair of expressions (C54_violated) and, for cards read as tallies over repeated structures (F_4), for every accepted card whose bins are cells or chains of cells, whatever its spacing (C54_cards_merged): all of them end up in one bin. In the data block of a file every such card with at least one chain is read this way (C54_file_merged); lists of plain numbers go to another class first and are kept. Cards with one bin keep it (C54_one_bin_partial), and cards of plain numbers keep one bin per number (C54_plain_partial).

### C55 The vertical data format stands for its columns — partial

*Model and method.* First-success lemmas for the greedy patterns (VerticalLemmas.lean: First) give the match of a block exactly; splitting, transposing and joining are computed for lists of any length, and both files are shown to have the same text after preprocessing.

*Theorems.* Vertical: `C55_partial` (PCQ), `C55_indented_violated` (PCQ), `C55_lost_violated` (PCQ), `C55_violated` (P).

*Status.* Proved for blocks of at least two columns whose rows begin in the first column with a digit and that are followed by a line that is no row. The code violates the property otherwise: with blanks before the rows every card gets the entries of the card to its left; of two blocks without a line in between the second ends the data block and everything after it is lost; blocks of one column are not recognised.

### C56 PTRAC events and histories round trip — partial

*Model and method.* Events in sequence; the history pattern on printed lines, induction over events.

*Theorems.* PtracEvent: `C56_history_partial` (PCQ), `C56_empty_violated` (PCQ).

*Status.* Proved for any number of events (at least one) whose layout is not shadowed. The code violates it for a history without events.

### C57 Malformed PTRAC text fails with the documented error — partial

*Model and method.* Errors are followed through the readers (`Out`); what a group of a pattern captures is a piece of the text of the width of the group (Py/Caps), so fields are not empty and C05 applies; a text that reads as infinity or not-a-number has a letter n, so the pattern of L blocks never finds one. Negations with witnesses, for unknown codes for every event.

*Theorems.* PtracErrors: `C57_p` (PCQ), `C57_v` (PCQ), `C57_l` (PCQ), `C57_j_partial` (PCQ), `C57_i_partial` (PCQ), `C57_event_partial` (PCQ), `C57_history_partial` (PCQ), `C57_n_partial` (PCQ), `C57_header_partial` (PCQ), `C57_file_partial` (PCQ), `C57_shorthand_violated` (PCQ), `C57_special_violated` (PCQ); PtracEvent: `C57_unknown_code_violated` (PCQ), `C57_unknown_code` (PCQ).

*Status.* The code violates it in three ways: an unknown event type raises UnboundLocalError (for every event of the right shape), an integer field that reads as infinity or not-a-number raises OverflowError or ValueError, a shorthand in a history raises AttributeError. For every text there is no other exception; P lines, V blocks and L blocks raise library errors only.

### C58 PTRAC headers and files round trip — partial

*Model and method.* Headers and files as sequences of lines, for any number of histories and events.

*Theorems.* PtracFile: `C58_header_partial` (PCQ), `C58_file_partial` (PCQ), `C58_swallow_violated` (PCQ), `C58_nine_violated` (PCQ), `C58_padding_violated` (PCQ).

*Status.* Proved for files of any number of histories and events with positions only and header texts that fill their columns. The code violates it for P lines of nine values (refused, or read as a file without histories) and for shorter texts (padded).

### C59 Columns of mesh tally rows stay in place — partial

*Model and method.* The thirty-two combinations of columns, each for all values.

*Theorems.* Meshtal: `C59_row_columns_partial` (PCQ), `C59_xyz_violated` (PQ).

*Status.* Exact characterisation: sixteen of the thirty-two combinations keep their columns. The code violates it for the others, among them the usual rows with x, y and z only.

### C60 MESHTAL files round trip — partial

*Model and method.* Header templates and rows; induction over rows. Lines of bins in any order and number by induction over the lines, against a spec that looks for the last line of each kind.

*Theorems.* MeshtalFile: `C60_header_roundtrip` (PCQ), `C60_file_roundtrip_partial` (PCQ), `C60_rows_never_raise` (PCQ), `C60_total_row_violated` (PCQ), `C60_second_mesh_violated` (PCQ); MeshtalBins: `C60_bins` (PCQ).

*Status.* Proved for headers whose values fit and any number of rows with one of seven combinations of columns. The code violates it for other rows (rows of totals lose their last digit) and for files with several meshes (lines of the second header become rows).

### C61 Blocks of output files round trip — partial

*Model and method.* Pattern and f-string of each class are turned into lists of symbols and compared by evaluation; lemmas lift that to all field values.

*Theorems.* OutpBlocks: `C61_blocks_exact` (PCQ), `C61_blocks_reread` (PCQ), `C61_density_exact_violated` (P).

*Status.* Rereading is proved for all seven classes and exact printing for the four that keep every field. The slope of a density block is lost.

### C62 Tallies of output files round trip — partial

*Model and method.* The same for tallies, subtallies and lines; induction over lines and subtallies.

*Theorems.* OutpTally: `C62_tally_reread_partial` (PCQ), `C62_tally_subs` (PCQ), `C62_message_violated` (P), `C62_lines_violated` (P).

*Status.* Proved for all six classes when every subtally has a line and there is no message. The code violates it for a pulse height tally with a message and for a subtally whose lines have another form.

### C63 Output files round trip — partial

*Model and method.* Blocks between texts; induction over the blocks of a file.

*Theorems.* OutpFile: `C63_file_reread_partial` (PCQ), `C63_file_violated` (P).

*Status.* Proved when every subtally has a line and no tally has a message. The code violates it for a tally with a message, which is lost.

### C64 A failed save or export leaves existing files as they were — partial

*Model and method.* Files as a map from paths to contents; the order of opening, reading and writing in the code.

*Theorems.* Cli: `C64_save` (PCQ), `C64_convert_partial` (PCQ), `C64_convert_violated` (PCQ).

*Status.* Proved for saving, and for exporting a tally that is in a file whose tally numbers differ and whose subtallies have lines. The code violates it for a tally number that is not in the file: the target is emptied. Failures of the operating system while writing are not modelled.

### C65 Fixing an input file keeps the input — partial

*Model and method.* As C64 for any reader and printer, then with the input file model.

*Theorems.* Cli: `C65_fix_safe` (PCQ), `C65_fix_partial` (PCQ), `C65_input_partial` (PCQ), `C65_fix_violated` (P).

*Status.* That nothing is changed on failure and no other file is touched is proved for every reader and printer. That the input is kept is proved under the hypotheses of C35_file_partial; the code violates it for a file with a message.

### C66 A surface card is read by its entries and round trips — partial

*Model and method.* `surface_read`: the pattern of surface cards on any text of entries equals a word-level reading, the equation being chosen by its keyword and number of entries. Printing leaves a double blank where the transformation is unset; `blank_roundtrip` shows that it is harmless.

*Theorems.* Surface: `C66_read` (PCQ), `C66_roundtrip_partial` (PCQ); SurfaceGap: `C66_violated` (PCQ).

*Status.* The reading is proved for every card of the form sign-number, entries. The round trip is proved for every kind of surface with finite coefficients and bare shorthand, required entries set and no unset entry before a set one; numbers that are infinite or counted shorthand are left out (C05, C20), and the code violates the property for gaps among optional entries (C66_violated).

### C67 Surface numbers are in range — partial

*Model and method.* The constructor's checks in their order, for all integers.

*Theorems.* Surface: `C67_number_partial` (PCQ), `C67_violated` (PCQ).

*Status.* Proved for surfaces without transformation, and for the transformation itself. The code violates it for surfaces with a transformation: the test is `... if not transform else 999`, which is true for every number.

### C68 Options of a card are read one by one — partial

*Model and method.* Induction over the list of options: the search finds each option with exactly its entries because no class tried earlier can begin there (beginnings of all matches are computed from the patterns) and the class itself stops before the next word; the table checks are decided by the kernel. Round trip: the printed text is the words of the card and its options, which are read as above. Patterns that capture an entry without its blank are related to the usual ones by a simulation between the two runs of the matcher (Bare.lean): the same ends in the same order, and the same values of the captures. Lost entries: the card as a whole matches, as its options accept them, but the search for options stops after the first entry of a list and passes over the characters of the others, with which no option begins.

*Theorems.* OptionCard: `C68_read_partial` (PCQ), `C68_keyword_partial` (PCQ), `C68_roundtrip_partial` (PCQ), `C68_longest_first` (PCQ), `C68_list_violated` (PCQ), `C68_direction_violated` (PCQ), `C68_particle_violated` (PCQ); Lost: `C68_lists_lost` (PCQ), `C68_keyword_lost` (PCQ), `C68_list_first` (PCQ).

*Status.* Proved for options whose entries go one to a field and whose class is not preceded by a class that accepts a beginning of the option; for the 18 cards whose options differ in their keywords the second condition always holds. The code violates it for lists: of every list of plain numbers in one of 40 options only the first entry is kept (C68_list_first, for all texts), and the others are dropped without an error; also for direction cosines that begin with 0 and for particles that depend on another variable. Round trip: options with at least one entry, filled from the left. Options whose entry is one of several fixed words (geom of mesh tallies, file, write and conic of particle tracks, file and reset of plots) are included. Options with nested options are left out.

### C69 Cell cards are read as written and round trip — partial

*Model and method.* The match of the pattern is computed: the look-behind is decided by whether the material is 0, the greedy run of non-letters takes the geometry and gives back nothing because the options begin with a letter or a star; the options are read as in C68. Round trip: printed geometries are shown by induction over the tree to be words without letters, C11 reads them back, and the blanks left by an unset density or unset options are removed. Lost entries (C69_lists_lost) as in C68. Transformations: the search for options is followed option by option (Found in DeepFind.lean); the classes of trcl are tried first, longest first, and each is shown not to begin at entries that are too few (their blanks are counted) and the right one to take exactly its entries, and the blank after them if one more piece would be allowed.

*Theorems.* CellCard: `C69_read_partial` (PCQ), `C69_range` (PCQ), `C69_roundtrip_partial` (PCQ), `C69_violated` (PCQ); DeepCells: `C69_moved_partial` (PCQ), `C69_moved_roundtrip_partial` (PCQ); CellLost: `C69_lists_lost` (PCQ); FillLost: `C100_cell_lost` (PCQ).

*Status.* C69_lists_lost determines what happens to lists of plain numbers in options (temperatures): the first entry is kept and the others are lost. Proved for cards whose geometry has no letters (no other geometry is accepted) and whose options have entries that go one to a field and a class that is not preceded by a class accepting a beginning of the option. Round trip: integer number and material, finite density, any geometry the reader can produce, options with at least one entry and filled from the left. Transformations among the options (trcl with its entries) are read and round trip as well (the two theorems named moved); missing there: an option beginning like a number after a transformation without a parenthesis, and eight entries with a system. The code violates it for fills (lattices keep one universe, transformations are lost), lists of temperatures and transformations (printed without parentheses).

### C70 Data cards are told apart by their keywords — partial

*Model and method.* Two functions on patterns, the beginnings of the texts a pattern matches and what may be left of a given beginning after a match, are proved to be sound for every pattern by induction (Feed.lean). They show that two patterns with different keywords have no text in common; the check is a computation over all pairs of the 152 patterns. The rest is the loop of the union (C48).

*Theorems.* DataCard: `C70_keyword` (PCQ), `C70_union` (PCQ), `C70_result` (PCQ), `C70_first` (PCQ), `C70_later` (PCQ), `C70_alone` (PCQ), `C70_roundtrip_partial` (PCQ), `C70_violated` (PCQ).

*Status.* Proved for all texts: no two classes with different keywords, the first class of a keyword, classes alone with their keyword. Later classes of a keyword read their cards when the earlier ones refuse them (C70_later); the code violates the round trip for them: a card of Phys_4 for neutrons is read as Phys_0, and sp1 -21 1 as a table of probabilities.

### C71 A whole input file survives printing and reading — partial

*Model and method.* The parts are put together: the text printed for a card is the list of its words, wrapped (Whole.lean), so the reader of files finds the lines of the cards (C35); every line is read back by the union of its block (C69, C66, C23, C68, C70) and the cells are accepted (C36).

*Theorems.* Whole: `C71_roundtrip_partial` (PCQ), `C71_importance` (PCQ), `C71_message_violated` (PCQ).

*Status.* Proved for files of any length made of cells, like cards, comments, surfaces and data cards that are built from readable parts (C69, C72, C73, C66, C23, C68). Cells and like cards may hold transformations (C69 and C72, the theorems named moved). Missing: messages, empty blocks, titles and trailing text that are not words one blank apart. The code violates the property for messages.

### C72 `like` cards are read entry by entry and survive printing — partial

*Model and method.* As C69: the pattern of Like is run on the words (like_match), the options are cut by C68's lemmas; the printed text is a list of words that blank_roundtrip reads back. Transformations as in C69. Lost entries as in C68.

*Theorems.* LikeCard: `C72_read_partial` (PCQ), `C72_range` (PCQ), `C72_roundtrip_partial` (PCQ); DeepCells: `C72_moved_partial` (PCQ), `C72_moved_roundtrip_partial` (PCQ); CellLost: `C72_lists_lost` (PCQ); FillLost: `C100_like_lost` (PCQ).

*Status.* Proved for cards whose options are each found by their own class. C72_lists_lost determines what happens to lists of plain numbers: the first entry is kept. Missing: the other options that the lazy patterns cut short (as in C69_violated) and options without entries.

### C73 Comment cards are comments in every block and survive printing — partial

*Model and method.* The captures of any match of the patterns of Cell, Like and Surface are determined (Refuse.lean: relaxing the anchors leaves an unanchored pattern whose first group must be the first word), so they fail on the number `c`; the data classes are kept off by C70.

*Theorems.* Comment: `C73_read_partial` (PCQ), `C73_blocks` (PCQ), `C73_roundtrip_partial` (PCQ), `C73_violated` (PCQ), `C73_lines_violated` (PCQ).

*Status.* Recognition in all blocks is proved for all words; reading and printing for words without meaning to the reader of lines. The code changes comments with =, $, repeated blanks or shorthand, and continues long comments on lines that are no comments.

### C74 Equality of cards and files means equal contents — partial

*Model and method.* What survives printing and reading is determined by its text (survives_inj), so the round trips of C66, C69, C71–C73 make printing injective on readable parts; the spec is equality of the values themselves.

*Theorems.* Equal: `C74_cards_partial` (PCQ), `C74_files_partial` (PCQ), `C74_violated` (PCQ).

*Status.* Proved for cards of one block and whole files made of readable parts (C71). The code violates the property for numbers that are equal but written differently (1.0 and 1) and for a comment without text, which equals one with an empty text.

### C75 Numbers compare and calculate as numbers — partial

*Model and method.* The dispatch of Python (method of the left operand, then the reflected method of the right one) is modelled over the methods of both classes; the spec compares integers, for decimals after multiplying both with the same power of ten, and is shown not to depend on the power. Powers follow the repeated squaring of the interpreter and are compared with a product of copies.

*Theorems.* Operators: `C75_integer` (PCQ), `C75_real` (PCQ), `C75_infinite` (PCQ), `C75_arithmetic` (PCQ), `C75_violated` (PCQ); Powers: `C75_power` (PQ), `C75_power_violated` (PQ).

*Status.* Proved for Integer with Integer and int (sums, differences, products, quotients, remainders, divmod and powers), and for Real, finite or infinite, with Real, Decimal and int. The code violates the property for an Integer with a Real or a Decimal: every comparison and every result is None. Arithmetic of Real is C90 and C93; powers of Real are not modelled.

### C76 Error texts tell the kind of the error and quote at most four lines — proved

*Model and method.* The message is rewritten as lines joined by newlines and split again (splitC_join); the spec speaks of the lines a reader sees. Distinctness compares the tables of first lines of all pairs of classes.

*Theorems.* Messages: `C76_message` (PQ), `C76_distinct` (PQ).

*Status.* All classes and all codes raised in the library; the codes raised are a list made by reading the raise statements.

### C77 The exit status of a command tells whether it did its work — partial

*Model and method.* Case analysis over the readers, the handlers and the order of writing; the spec speaks of the contents of files before and after.

*Theorems.* Commands: `C77_check` (PCQ), `C77_fix` (PCQ), `C77_fixed_partial` (PCQ), `C77_run` (PCQ), `C77_run_unreadable` (PCQ), `C77_run_violated` (PCQ), `C77_convert` (PCQ), `C77_check_status` (PCQ), `C77_convert_status` (PCQ), `C77_run_status` (PQ).

*Status.* Proved for check, check --fix and convert, and for run up to the start of the batch and for its status at the end. The code violates the property for run when the command is not found: nothing is run and the status is 0. That a fixed file can be read again is proved for files made of readable parts.

### C78 A cell is drawn where its geometry puts it — partial

*Model and method.* Sides: linear and quadratic arithmetic over the reals for each kind of surface, against equations written from the manual (Positive). Cells: induction over geometries and over the list of cells with the dictionary of drawn cells as invariant, against Meaning (C12) with the senses of the point.

*Theorems.* Show: `C78_sides_partial` (PCQ), `C78_points` (PCQ), `C78_cells_partial` (PCQ), `C78_cylinders` (PCQ), `C78_cylinders_violated` (PCQ), `C78_cones_violated` (PCQ), `C78_bodies_violated` (PCQ), `C78_insides_violated` (PCQ), `C78_undrawn_violated` (PCQ), `C78_transformations_violated` (PCQ).

*Status.* Proved, over the real numbers, for planes, spheres, parallelepipeds, boxes along the axes and upright cylinders, for cells made from them without complements of cells, and for cells like such cells. The code violates the property for all cylinders without ends (inside out, and about the wrong axis), all cones, ellipsoids, truncated cones, inclined bodies, tori, wedges and prisms, three points in the other order, and ignores transformations; one quadric, ARB or X/Y/Z surface keeps every cell from being drawn. Complements of cells: C14_violated.

### C79 A surface is drawn where it is — partial

*Model and method.* The quarter turns are computed; the rotation of rcc is shown to keep lengths and to take the axis to the direction of the height (Rodrigues' formula), so that the mesh is the set of the manual, displaced. Against equations written from the manual (OnSurface).

*Theorems.* ShowMesh: `C79_planes` (PCQ), `C79_planes_violated` (PCQ), `C79_meshes_partial` (PCQ), `C79_cylinders_partial` (PCQ), `C79_parallel_violated` (PCQ), `C79_cones_partial` (PCQ), `C79_sheets_violated` (PCQ), `C79_tori` (PCQ), `C79_tori_partial` (PCQ), `C79_tori_violated` (PCQ), `C79_rcc` (PCQ), `C79_rcc_violated` (PCQ), `C79_trc_violated` (PCQ), `C79_bodies_partial` (PCQ), `C79_bodies_violated` (PCQ).

*Status.* Proved, over the real numbers and for the smooth sets that pyvista approximates, for planes (with the exact condition), spheres, parallelepipeds, cylinders without ends, cones along the first and third axes, tori with a circular section, boxes with edges along the axes and ellipsoids with a centre along the first axis. The code violates the property for other planes, c/z, cones along the second axis (the other sheet), other tori (radii swapped), rcc (displaced by half its length), trc, rec (twice its height) and oblique ell (turned the wrong way). Oblique boxes and ell with foci are not treated; the meshes of rhp and wed are not modelled.

### C80 A material made from formulas has the fractions of its nuclides — partial

*Model and method.* Induction over the formulas, elements and isotopes; the table of elements is checked as a whole by evaluation in the kernel (sums of abundances, distinct symbols and mass numbers). The spec has the shares by atoms and by weight, from the masses in the table, which the code does not use.

*Theorems.* Formula: `C80_table` (P), `C80_entries` (PCQ), `C80_single_partial` (PCQ), `C80_elements_partial` (PCQ), `C80_atoms` (PCQ), `C80_atoms_violated` (PCQ), `C80_isotopes` (PCQ), `C80_isotopes_violated` (PCQ), `C80_unnatural_violated` (PCQ), `C80_unknown` (PCQ).

*Status.* The entries are characterised exactly, over the rational numbers and given the composition that molmass reports. With weights the fractions of elements are right (nothing cut off, natural elements) and those of elements with a single isotope. The code violates the property otherwise: with atomic fractions it enters the weights; the share of an isotope is that of atoms also with weights; elements without natural isotopes are left out.

### C81 Cells are sampled all over the drawing — partial

*Model and method.* The sample below a point is found with the floor of the distance from the origin of the grid in steps; linear arithmetic.

*Theorems.* Grid: `C81_partial` (PCQ), `C81_violated` (PCQ).

*Status.* Proved, over the real numbers, for bounds that are symmetric about the origin. The code violates the property otherwise: the grid is always centred at the origin.

### C82 Drawing a selection draws what was selected — partial

*Model and method.* Induction over the block of cells: the regions put together so far are those of the full drawing without what is left out, and a geometry depends only on the cells it refers to. The command is a sequence of steps; windows are shown to follow the options one by one.

*Theorems.* Select: `C82_cells` (PCQ), `C82_left_out_partial` (PCQ), `C82_left_out_violated` (PCQ), `C82_text_violated` (PCQ), `C82_surfaces` (PCQ), `C82_windows` (PCQ), `C82_drawn` (PQ), `C82_files_partial` (P), `C82_files_name` (PCQ), `C82_files_violated` (PCQ).

*Status.* Proved for listed cells and surfaces, for surfaces left out, and for the command with windows. The code violates the property when a remaining cell is made from one that is left out (KeyError, or the surface of the same number instead), when a number is given as a text (12 also draws 1 and 2), and for files: what is to be skipped is in the file, listed surfaces raise TypeError, listed cells end in an error. docopt is not modelled.

### C83 The figures of a tally show every line once, under its place — partial

*Model and method.* The sorted keys are shown to be a strictly ordered list of exactly the places of the subtallies, so that the groups partition the rows; the places are independent of the model's tables (`subPlace`, `linesAt`).

*Theorems.* Plot: `C83_figures_partial` (PCQ), `C83_lines_partial` (PCQ), `C83_unknown` (PCQ), `C83_shared_violated` (PCQ).

*Status.* Proved for files that have tables (C44: tally numbers differ, every subtally has a line, its texts are numbers). Subtallies at the same place share a figure. What matplotlib draws is not modelled; the numbers are the subject of C103.

### C84 Filters and processors of mesh tally files see every tally once and in order — proved

*Model and method.* Induction over the number of elements asked for and over the list of tallies, with a check that notes what it is asked.

*Theorems.* Loops: `C84_filter` (P), `C84_filter_pure` (P), `C84_filter_raises` (PQ), `C84_processor` (PQ).

*Status.* For checks and methods that may depend on everything seen before and may raise.

### C85 Malformed OUTP and MESHTAL text fails with the documented error — partial

*Model and method.* Errors are followed through the readers (`Out`); what a group of a pattern captures is a piece of the text of the width of the group (Py/Caps), so number fields are not empty and C05 applies.

*Theorems.* FileErrors: `C85_outp` (P), `C85_block` (PQ), `C85_row` (-), `C85_header_partial` (PCQ), `C85_meshtal_partial` (PCQ), `C85_special_violated` (PCQ).

*Status.* OUTP files, their blocks and MESHTAL rows: proved for every text. MESHTAL headers violate it: a number of histories or a tally number that reads as infinity or not-a-number raises OverflowError or ValueError; proved that there is no other exception.

### C86 Reading input text fails only with the documented errors — partial

*Model and method.* An abstract interpreter over the table of classes: what the groups of a pattern can capture (blank, free of letters of inf and nan), what kinds of values the types make of it and what the setters raise on them is computed per class and proved sound (`build_sound`); the table is then checked by `decide +kernel`. Causes are read off the entry texts (`build_cause`).

*Theorems.* CardErrors: `C86_told` (PCQ), `C86_card_partial` (PCQ), `C86_cause_partial` (PCQ), `C86_data_partial` (PCQ), `C86_data_violated` (PCQ), `C86_surface_partial` (PCQ), `C86_surface_violated` (PCQ), `C86_cell_partial` (PCQ), `C86_cell_violated` (PCQ), `C86_file_partial` (PCQ).

*Status.* Proved for every text and 110 of the 152 data cards. 39 others raise TypeError or AttributeError, for 22 of them proved to come from a shorthand among the entries; surfaces raise these, OverflowError, ValueError or the ArithmeticError of decimal, each traced to the number of the surface or to the coordinates of a plane through three points; F_4, Files and Phys_2, cells and like cards raise further exceptions, listed with witnesses. A whole file raises nothing that none of its lines raises.

### C87 A plane through three points needs three points that are not on a line — partial

*Model and method.* Doubles are modelled as multiples of 2^-1074 with rounding to nearest even, decimal differences with 28 digits (Py/Double.lean); sums and products of small whole numbers are proved exact, so the cross product is the exact one, and its vanishing is proved equivalent to `OnLine` over the integers.

*Theorems.* Plane: `C87_make_partial` (PCQ), `C87_change_partial` (PCQ), `C87_violated` (PCQ).

*Status.* Proved for whole coordinates below 2^25 in magnitude, where the floating-point test is exact; for others it fails in both directions (witnesses).

### C88 Assigning attributes one by one is as strict as constructing — partial

*Model and method.* Setters whose test looks at the new value alone are recognised by a computable criterion, checked in the kernel over the table of classes; for those the constructor is the conjunction of the verdicts. For the plane the nine tests are shown to be one function of the nine coordinates. Histories by induction over the assignments.

*Theorems.* Put: `C88_contents_partial` (PCQ), `C88_plane` (PCQ), `C88_history_partial` (PCQ), `C88_violated` (PCQ).

*Status.* Proved for 672 of the 679 classes and for the plane through three points. The other six (Xlims, Ylims, the Bcw option of SSR, Cell, Kcode, Surface) violate it: one attribute is tested against another, but not the other way round (a witness for each).

### C89 Regions composed from surface objects are the regions meant — partial

*Model and method.* Structural induction over the expressions, on top of C13 (Built). The spec (Inside) is a Boolean function of the sides of the surfaces, without texts or trees.

*Theorems.* Regions: `C89_outcome` (PCQ), `C89_object_partial` (PCQ), `C89_region_partial` (PCQ), `C89_violated` (PCQ).

*Status.* Which expressions have a value is decided for all of them, and the object itself is the region unless the complement of a surface is taken. The region is proved for intersections of unions of sides. The code violates the property for unions of intersections (no parentheses are printed) and, for every surface, for its complement, which is printed as the complement of the cell of the same number.

### C90 Sums, differences and products of reals are those of the numbers — partial

*Model and method.* The dispatch of the operators is modelled method by method and reduced to one operation on decimals; rounding to 28 digits is proved correct against exact integer arithmetic in units of the last place (To28).

*Theorems.* RealOps: `C90_sum_partial` (PCQ), `C90_violated` (P).

*Status.* Proved for values read from a text. The code violates the property for all values assigned from an int or a float: with every number on either side they raise TypeError (C90_violated is universal). Infinities, and numbers beyond 10^200000 or with more digits, are left out.

### C91 What was assigned is what is held — partial

*Model and method.* Python compares int, float and Decimal exactly, modelled as fractions; the condition is a statement on integers (TextExact).

*Theorems.* RealOps: `C91_int` (PQ), `C91_float_partial` (PQ), `C91_violated` (P).

*Status.* Proved for whole numbers. For floats the exact condition is proved: the text has to denote the value exactly. The code violates the property for the others, such as 0.1.

### C92 Materials, tallies, sources and dose functions keep what they say — partial

*Model and method.* Volumes and special bins by the same simulation as in C68 (Bare.lean). Sufficient (and for keywords exact) conditions on the word-level assignment of entries to fields; lists of rows and materials by matching lemmas for rows of words; tallies by a head pattern with restricted digits; all of them are also admitted in the files of C71 (GoodData). Options made of rows, dependent sources and biases of photon production by the same lemmas for rows; for the last two the numbered groups inside the first entry of a row are shown to stand where the second entry is looked up.

*Theorems.* Grouped: `C92_keyword` (PCQ), `C92_segments` (PCQ), `C92_volumes` (PCQ), `C92_bins` (PCQ), `C92_apart_partial` (PCQ), `C92_rows_partial` (PCQ), `C92_material_partial` (PCQ), `C92_tally_read` (PCQ), `C92_tally_partial` (PCQ), `C92_changed_violated` (PCQ), `C92_lost_violated` (PCQ), `C92_refused_violated` (PCQ); RowOption: `C92_option_rows_partial` (PCQ), `C92_rows_read` (PCQ), `C92_option_rows_read` (PCQ), `C92_rows_refused` (PCQ); Depend: `C92_depend_read` (PCQ), `C92_depend_pairs_partial` (PCQ), `C92_depend_distributions_partial` (PCQ), `C92_depend_lost` (PCQ); PhotonBias: `C92_photon_bias_lost` (PCQ), `C92_photon_bias_ignored` (PCQ).

*Status.* Proved for 20 classes and for every flat card whose entries cannot slide; for cards with a keyword the condition is exact. Point and ring detectors, biases of photon production and two kinds of dependent sources change their numbers, materials with options lose them, cells in parentheses raise AssertionError (witnesses). For all cards: the biases of photon production are replaced by atomic numbers, and values depending on distributions by the number of the distribution. Options made of rows and cards of dependent sources are read row by row; a number of entries that is not a multiple of the width of a row is refused.

### C93 Quotients and remainders of reals are those of the numbers — partial

*Model and method.* The three operations of `decimal` follow its reference implementation, rounding included. Quotient and remainder are specified by `x = q*y + r` over integers after scaling both numbers to the same exponent; the true quotient `r` by cross multiplication: `2*|r*y - x| <= y` in units of its last digit, 28 digits unless exact, exact whenever some decimal of 28 digits is. The violation compares with the operators of `Integer` and is an equivalence.

*Theorems.* Division: `C93_whole_partial` (PCQ), `C93_frac_partial` (PCQ), `C93_violated` (PCQ), `C93_violated_made` (P).

*Status.* Proved for values read from a text. The code violates the property: whole numbers held as Real cut the quotient off, as Integer they round it down (C93_violated says exactly when they agree), and values assigned from an int or a float raise TypeError with every number (C93_violated_made). Infinities, and numbers beyond 10^200000 or with more digits, are left out.

### C94 Values that are equal have equal hashes — partial

*Model and method.* Hashes of whole numbers, decimals and floats are modelled as Python computes each of them, modulo 2^61 - 1 with the inverses of ten and two; the proof brings every number to a fraction, shows that the hash is the numerator times an inverse of the denominator, and that equal fractions give equal residues.

*Theorems.* Hash: `C94_read_partial` (PCQ), `C94_made_partial` (PCQ), `C94_violated_float` (P), `C94_violated_shorthand` (PCQ).

*Status.* Proved for all values but shorthand, with each other, with whole numbers and decimals, and with floats whose text is exact. The code violates the property for other floats (Real.from_mcnp('0.1') == 0.1 with different hashes) and for every shorthand, which equals itself but cannot be hashed. NaN equals nothing.

### C95 The text of comments, multipliers and treatments of tallies survives — partial

*Model and method.* A separate table of the three cards; the pattern's last group takes everything after the first blank, and the first word is determined because no head can contain a blank; printing is traced to the words as for lists of words, then the wrapping theorem of C18 applies.

*Theorems.* FreeText: `C95_read_partial` (PCQ), `C95_roundtrip_partial` (PCQ), `C95_violated` (PCQ).

*Status.* Proved for text made of words one or more blanks or line breaks apart, read as the words one blank apart. The code violates the property for text with equals signs (which become blanks), several blanks in a row, dollar signs (the rest is lost) and words that look like shorthand with a count (2r is written out).

### C96 Converting numbers of cards rounds as promised — partial

*Model and method.* Whole numbers by inequalities over fractions a/b of whole numbers of any size; the nearest float by comparing the result with every number of 53 binary digits, which is a multiple of the unit of the last digit or lies below a power of two that is not above the number; the threshold of infinity follows from that.

*Theorems.* Rounding: `C96_whole` (PCQ), `C96_refused` (PQ), `C96_float` (PCQ), `C96_bool` (PCQ), `C96_sign_partial` (PCQ), `C96_violated` (-).

*Status.* Everything but the sign operators is proved in full. -x, +x and abs(x) of a Real round to 28 digits: negating a decimal of 29 digits twice does not give it back (C96_violated); for decimals of up to 28 digits and exponents between -200000 and 200000 they are exact.

### C97 Transformations inside cell options keep their entries — partial

*Model and method.* The pattern of a transformation is turned into a statement about pieces by induction on their number; pieces are determined by the text, so forms with different numbers of pieces exclude each other; all other options are excluded by a check on pairs of patterns that is proved sound.

*Theorems.* Transform: `C97_transformation` (PCQ), `C97_transformation_roundtrip` (PCQ), `C97_option` (PCQ), `C97_other` (PCQ), `C97_roundtrip_partial` (PCQ), `C97_class_roundtrip` (PCQ), `C97_violated` (PCQ), `C97_following_violated` (PCQ).

*Status.* Reading is proved for all texts. Printing and reading back among the options of a cell fails for eight entries with a system, which are read as nine entries, and for entries that are jumps (C97_violated); the round trip is proved for all other transformations of finite numbers, and for those too if read by their own class. In whole cells, entries without parentheses and system also take the beginning of a following option whose name begins with e or d (C97_following_violated).

### C98 Attributes of cells and surfaces hold what was last assigned — partial

*Model and method.* A relation says which value is kept for which argument; each setter is shown to accept exactly the related pairs, and a history is an induction with the last accepted assignment as its witness.

*Theorems.* Holds: `C98_cell` (PCQ), `C98_cell_history` (PCQ), `C98_cell_new` (PCQ), `C98_cell_bounds` (PCQ), `C98_surface_partial` (PCQ), `C98_surface_history` (PCQ); CellState: `C33_violated` (PCQ).

*Status.* Proved for cells, and for the transformation, the kind and the prefix of surfaces. Numbers of surfaces are covered as long as no transformation is attached; with one, any number is accepted (C33_violated). Floats are kept as they are.

### C99 Texts and tuples behave as the containers they look like — partial

*Model and method.* The order is characterised by the first difference of two texts (induction over both), parts by a decomposition of the text, positions by the number of elements before or after; membership in tuples rests on C75.

*Theorems.* Texts: `C99_compare` (PCQ), `C99_order` (PCQ), `C99_join` (PQ), `C99_repeat` (PQ), `C99_item` (PQ), `C99_tuple_item` (PQ), `C99_part` (PQ), `C99_member_whole` (PCQ), `C99_member_decimal` (PCQ), `C99_violated` (PCQ).

*Status.* Everything is proved for a text or tuple on the left of the operator, and for comparisons and repetition by an int on either side. The code violates the property for str + String (TypeError), Integer * String (None), an Integer as a position in a tuple (TypeError) and an Integer searched in a tuple of reals (never found); C99_violated is universal. Slices and identity are not modelled.

### C100 A cell filled with a universe keeps the universe and where it is put — partial

*Model and method.* The pattern of the option is the pattern of a head and a number followed by an optional transformation; the optional part is shown to be taken exactly if twelve or thirteen pieces follow, and the patterns that are tried earlier are excluded. What whole cells lose is proved by following the search from option to option: each takes the words its class finds first, and the words after them are passed over because no option begins with their characters.

*Theorems.* Fill: `C100_holds` (PCQ), `C100_option_partial` (PCQ), `C100_cell_partial` (PCQ), `C100_like_partial` (PCQ), `C100_roundtrip_partial` (PCQ), `C100_violated` (PCQ); FillForm: `C100_form_holds` (PCQ), `C100_form` (PCQ), `C100_form_number` (PCQ), `C100_form_roundtrip_partial` (PCQ), `C100_form_number_roundtrip` (PCQ), `C100_form_violated` (PCQ); FillLost: `C100_cell_lost` (PCQ), `C100_like_lost` (PCQ).

*Status.* Proved for a universe alone, followed by a word that is no number, and for a universe with a transformation of twelve entries, with or without a system. Read alone, transformations of every form and their numbers are read and printed correctly, except eight entries with a system and numbers in parentheses. In whole cells the code violates the property: transformations of fewer entries or given by their number are lost without a word in whole cells, and a lattice with several universes keeps only the first (C100_cell_lost and C100_like_lost say so for all such cells).

### C101 A variable of a source that depends on another variable keeps it and its distribution — partial

*Model and method.* A class made of a keyword and one option of a second list takes its words if the inner class takes its own; the classes tried before it are shown, by evaluating the whole table, to need a number or a distribution where a variable stands. The repeated part of the pattern of embedded distributions is followed by induction. The card is then read option by option as for C68 and C96.

*Theorems.* Source: `C101_read_partial` (PCQ), `C101_holds` (PCQ), `C101_roundtrip_partial` (PCQ), `C101_violated` (PCQ).

*Status.* Proved for all variables but the particle, and for distributions up to 9 in what is held and printed. The code violates the property otherwise: a particle that depends on a variable loses the distribution, embedded distributions in parentheses or of other variables than the time are refused, and a distribution from 10 on loses digits (C08).

### C102 Attributes accept exactly the numbers and words in their documented ranges — proved

*Model and method.* A list of ranges, written from the setters with their lines (not from the tables of classes), gives for each attribute intervals of rational numbers; a function reads a condition as intervals and is proved sound for every decimal by comparing cross products with powers of ten in the rational numbers; that it reads each of the 395 conditions as the row of the list, and that no condition is missing in the list, is checked by evaluating the whole tables in the kernel.

*Theorems.* Ranges: `C102_numbers` (PCQ), `C102_texts` (PCQ), `C102_needed` (PCQ), `C102_others` (PCQ), `C102_holds` (PCQ), `C102_read` (PCQ), `C102_limits` (PCQ), `C102_cylinder` (PCQ), `C102_temperatures` (PCQ), `C102_kept` (PCQ), `C102_negative` (PCQ).

*Status.* For numbers (not NaN), None, jumps where they are documented, and texts; other shorthands as values of tested attributes are the subject of C86. The density of cells is the subject of C32, the number of surfaces of C33 and C67, the points of a plane of C87. C102_negative records that the numbers of tallies and similar cards have no lower limit.

### C103 The numbers of tallies reach their tables — partial

*Model and method.* The value of a spelling is defined as a rational number from its digits; the model of float is proved to give it, and by inverting each step of the model that nothing else is read as a number. The rows come by induction over lines, subtallies and blocks; the failure of one line is carried through the same inductions.

*Theorems.* OutpNums: `C103_spelled` (PCQ), `C103_exactly` (PCQ), `C103_underscores` (PCQ), `C103_special` (PCQ), `C103_cells` (PCQ), `C103_spoilt` (PCQ), `C103_violated` (PCQ).

*Status.* Violated for numbers with three-digit exponents, which MCNP prints without a letter (1.0000-101): one of them makes all tables of the file impossible (C103_violated). Infinities and nan are accepted besides (C103_special). The theorems on spelling are for texts without blanks, which lines never have. The rounding of numbers to binary is not modelled.

### C104 Electron physics cards keep their entries — partial

*Model and method.* The pattern is turned into the usual one (Bare.lean), and the matcher is shown by induction over its places to find the first way to place the words, where one place takes the two words j j (`slots`, defined on words alone). Which words go where is then an induction over lists; the round trip compares printed words and places by their widths.

*Theorems.* Phys: `C104_read` (PCQ), `C104_all` (PQ), `C104_first` (PQ), `C104_pair` (P), `C104_rest` (P), `C104_long` (PCQ), `C104_exact` (PCQ), `C104_round` (PCQ), `C104_violated` (PCQ).

*Status.* Violated for cards with gaps (C104_violated): with an earlier attribute unset, the words j j are given to earlier attributes; without j j, two jumps after the gap are read back as j j. C104_exact says which cards survive. Texts with comments or counted shorthand next to each other are outside Spaced, as in C25.

### C105 Point and ring detectors are read and printed correctly — partial

*Model and method.* The lazy repetition of the pattern is shown to match exactly the words whose number is a multiple of four (or three) before an optional nd, so the cut is unique; the entries are then found one after the other (RowLemmas). What truncation keeps is stated by `Cut`, bounds on the decimal coefficient. The round trip prints the words and reads them by C105_read.

*Theorems.* Detector: `C105_read` (PCQ), `C105_refused` (PCQ), `C105_point` (PCQ), `C105_ring` (PCQ), `C105_round_partial` (PCQ), `C105_round_violated` (PCQ), `C105_violated` (PCQ).

*Status.* Violated (C105_violated): the third coordinate and the radius of a point and the radius of a ring are read as whole numbers (C105_point, C105_ring say what is lost for all finite numbers); a detector with a word that is no number is dropped without an error, even if it is the only one; ND in capitals is refused. C105_round_partial leaves out negative card numbers and infinite coordinates, where the claim is false (C105_round_violated).

### C106 The fill option of a lattice is read and printed correctly — partial

*Model and method.* The pattern of the class is matched against the normalised words: the greedy repetition takes all numbers, the optional origin the rest; the matched groups are then read one by one. That no other fill class is tried first is part of the theorem, which is about the whole union of options.

*Theorems.* FillLattice: `C106_read` (PCQ), `C106_roundtrip_partial` (PCQ), `C106_origin_lost` (PCQ).

*Status.* Reading is proved in full. The round trip is violated for every lattice with an origin (C106_origin_lost): the origin is printed without its parentheses and read back as one more universe.

### C107 Filters of particle track files keep their bounds and variables — partial

*Model and method.* The pattern of an entry is shown to match exactly texts of two or three parts separated by commas, in one way only; entries are then rows of one word each (RowLemmas). Printed bounds contain no commas, so the printed entry is such a text.

*Theorems.* TrackFilter: `C107_read` (PCQ), `C107_single_refused` (PCQ), `C107_roundtrip_partial` (PCQ), `C107_unnamed_violated` (PCQ), `C107_single_violated` (PCQ).

*Status.* Reading and printing entries of three parts is proved in full, for the option on its own. The code violates the rest: every option with an entry of a single value is refused (C107_single_refused), and an entry without a name is printed with the name None and read back with it.

### C108 Cards that create files keep every file — partial

*Model and method.* The pattern of a file matches any two to five words in several ways, so the order in which the matcher tries them counts: run_file follows the matcher and shows that it takes as many words as it can. Splitting the list is then an induction on its words; a single word left over matches nowhere since it has no blank. Printing uses C18_wrap_roundtrip.

*Theorems.* Files: `C108_read` (PCQ), `C108_printed` (PCQ), `C108_roundtrip_partial` (PCQ), `C108_lost` (PCQ), `C108_merged` (PCQ), `C108_plain_refused` (PCQ), `C108_gap_violated` (PCQ).

*Status.* How every card is read is proved in full: five words at a time. The claim holds for cards whose files all have access, form and length, except at the end of the last. The code violates the rest: a word left over is ignored (C108_lost), a file without length swallows the unit of the next, whose name is lost (C108_merged), two files with unit and name only are printed and then refused (C108_plain_refused), and a file without access is printed so that its form is read as access (C108_gap_violated).

### C109 Cards of DXTRAN spheres keep every sphere — partial

*Model and method.* Fields that are rows of words: what they match and capture is an induction on the fields, and rows of fixed widths in one list of words are unique, so the captures are the entries cut five at a time. Printing compares the card with one that has words in place of its spheres.

*Theorems.* Dxtran: `C109_read` (PCQ), `C109_refused` (PCQ), `C109_roundtrip_partial` (PCQ), `C109_radius_violated` (PCQ).

*Status.* How every card is read is proved in full, and that every card with exactly ten spheres and three numbers is printed and read back unchanged. The code violates the rest: cards with any other number of entries are refused, so one to nine spheres cannot be read (C109_refused, all cards), and radii that are not whole are cut without an error (C109_radius_violated).

## Which source files are modelled

Besides the files below, 75 files of card, option and entry classes under `inp/` are
modelled as rows of the class table (`Inp/Table*`), each row citing its file and lines. Of those
classes 546 are covered by the general theorems on entries (C23, C25, C29); the rest are
modelled (reading, printing, construction) and used in witnesses and in particular theorems.

| file | cited in (under `lean/Verif/`) |
|---|---|
| `Check.py` | Run/Cli, Run/Commands |
| `Convert.py` | Run/Cli |
| `Inp.py` | Inp/CardUnion, Inp/DataUnion, Inp/File, State/Cell, State/Data, State/Held, State/Whole |
| `Meshtal.py` | Meshtal/File |
| `MeshtalFilter.py` | Meshtal/Loops |
| `MeshtalProcessor.py` | Meshtal/Loops |
| `Outp.py` | Outp/File |
| `Plot.py` | Outp/Plot |
| `Ptrac.py` | Ptrac/Header |
| `PtracFilter.py` | Ptrac/Event |
| `PtracProcessor.py` | Ptrac/Event |
| `Run.py` | Run/Commands, Run/Run |
| `Visualize.py` | Run/Visualize, Show/Cells, Show/Grid, Show/Select |
| `_cli/_io.py` | Run/Cli |
| `_cli/check.py` | Run/Commands |
| `_cli/convert.py` | Run/Cli, Run/Commands |
| `_cli/plot.py` | Run/Cli |
| `_cli/run.py` | Run/Commands |
| `_cli/visualize.py` | Run/Cli, Run/Visualize |
| `_elements.py` | Inp/Elements |
| `_file.py` | Run/Cli |
| `_show/_shape.py` | Show/Shape |
| `_show/pyvista/Box.py` | Show/Shape |
| `_show/pyvista/ConeTruncated.py` | Show/Shape |
| `_show/pyvista/ConeUnbounded.py` | Show/Shape |
| `_show/pyvista/CylinderCircular.py` | Show/Shape |
| `_show/pyvista/CylinderElliptical.py` | Show/Shape |
| `_show/pyvista/CylinderHexagonal.py` | Show/Shape |
| `_show/pyvista/CylinderUnbounded.py` | Show/Shape |
| `_show/pyvista/Ellipsoid.py` | Show/Shape |
| `_show/pyvista/Parallelipiped.py` | Show/Shape |
| `_show/pyvista/Plane.py` | Show/Shape |
| `_show/pyvista/Sphere.py` | Show/Shape |
| `_show/pyvista/Torus.py` | Show/Shape |
| `_show/pyvista/Wedge.py` | Show/Shape |
| `_show/pyvista/_shape.py` | Show/Cells, Show/Grid, Show/Shape |
| `_symbol.py` | Inp/AltLemmas, Inp/Card, Inp/Equal, Inp/Text, Ptrac/Event, Ptrac/Header, Types/Hash, Types/Lazy, Types/Operators |
| `errors/CliError.py` | Run/Messages |
| `errors/InpError.py` | Run/Messages |
| `errors/MeshtalError.py` | Run/Messages |
| `errors/OutpError.py` | Run/Messages |
| `errors/PtracError.py` | Run/Messages |
| `errors/TypesError.py` | Run/Messages |
| `errors/_error.py` | Py/Err, Run/Messages |
| `inp/Act.py` | Inp/OptionTable, Inp/TableCards |
| `inp/Area.py` | Inp/RangeTable, Inp/TableCards |
| `inp/Awtab.py` | Inp/RangeTable, Inp/RowSpec, Inp/TableCards |
| `inp/Bbrem.py` | Inp/RangeTable, Inp/TableCards |
| `inp/Bflcl.py` | Inp/RangeTable, Inp/TableCards |
| `inp/Bfld.py` | Inp/OptionTable, Inp/RangeTable, Inp/TableCards |
| `inp/C.py` | Inp/CosineRead, Inp/RangeTable, Inp/TableCards |
| `inp/Cell.py` | Inp/RangeTable, Inp/TableCards, Inp/Value, State/Cell, State/Held |
| `inp/Cf.py` | Inp/RangeTable, Inp/TableCards |
| `inp/Cm.py` | Inp/RangeTable, Inp/TableCards |
| `inp/Comment.py` | Inp/TableCards, Inp/Value |
| `inp/Cosy.py` | Inp/RangeTable, Inp/TableCards |
| `inp/Cosyp.py` | Inp/RangeTable, Inp/TableCards |
| `inp/Ctme.py` | Inp/RangeTable, Inp/TableCards |
| `inp/Cut.py` | Inp/RangeTable, Inp/TableCards |
| `inp/Dawwg.py` | Inp/OptionTable, Inp/TableCards |
| `inp/Dbcn.py` | Inp/RangeTable, Inp/TableCards |
| `inp/Dd.py` | Inp/RangeTable, Inp/RowSpec, Inp/TableCards |
| `inp/De.py` | Inp/KeywordSpec, Inp/RangeTable, Inp/TableCards |
| `inp/Df_0.py` | Inp/KeywordSpec, Inp/RangeTable, Inp/TableCards |
| `inp/Df_1.py` | Inp/OptionTable, Inp/RangeTable, Inp/TableCards |
| `inp/Dm.py` | Inp/RangeTable, Inp/TableCards |
| `inp/Ds_0.py` | Inp/KeywordSpec, Inp/RangeTable, Inp/TableCards |
| `inp/Ds_1.py` | Inp/DepRead, Inp/RangeTable, Inp/TableCards, Inp/Value |
| `inp/Ds_2.py` | Inp/DepRead, Inp/RangeTable, Inp/TableCards, Inp/Value |
| `inp/Ds_3.py` | Inp/DepRead, Inp/RangeTable, Inp/TableCards, Inp/Value |
| `inp/Dxc.py` | Inp/RangeTable, Inp/TableCards |
| `inp/Dxt.py` | Inp/DxtRead, Inp/RangeTable, Inp/TableCards |
| `inp/E.py` | Inp/RangeTable, Inp/TableCards |
| `inp/Elpt.py` | Inp/RangeTable, Inp/TableCards |
| `inp/Em.py` | Inp/RangeTable, Inp/TableCards |
| `inp/Embdb.py` | Inp/RangeTable, Inp/TableCards |
| `inp/Embdf.py` | Inp/RangeTable, Inp/TableCards |
| `inp/Embeb.py` | Inp/RangeTable, Inp/TableCards |
| `inp/Embed.py` | Inp/OptionTable, Inp/RangeTable, Inp/TableCards |
| `inp/Embee.py` | Inp/OptionTable, Inp/RangeTable, Inp/TableCards |
| `inp/Embem.py` | Inp/RangeTable, Inp/TableCards |
| `inp/Embtb.py` | Inp/RangeTable, Inp/TableCards |
| `inp/Embtm.py` | Inp/RangeTable, Inp/TableCards |
| `inp/Esplt.py` | Inp/RangeTable, Inp/TableCards |
| `inp/Ext.py` | Inp/RangeTable, Inp/TableCards |
| `inp/F_0.py` | Inp/RangeTable, Inp/TableCards, Inp/TallySpec |
| `inp/F_1.py` | Inp/DetectorSpec, Inp/RangeTable, Inp/TableCards |
| `inp/F_2.py` | Inp/DetectorSpec, Inp/RangeTable, Inp/TableCards, Inp/Value |
| `inp/F_3.py` | Inp/RangeTable, Inp/TableCards, Inp/TallySpec |
| `inp/F_4.py` | Inp/Card, Inp/RangeTable, Inp/TableCards |
| `inp/Fc.py` | Inp/FreeSpec, Inp/RangeTable, Inp/TableCards |
| `inp/Fcl.py` | Inp/RangeTable, Inp/TableCards |
| `inp/Fic.py` | Inp/RangeTable, Inp/TableCards |
| `inp/Files.py` | Inp/RangeTable, Inp/TableCards |
| `inp/Fill.py` | Inp/RangeTable, Inp/TableCards |
| `inp/Fip.py` | Inp/RangeTable, Inp/TableCards |
| `inp/Fir.py` | Inp/RangeTable, Inp/TableCards |
| `inp/Fm.py` | Inp/FreeSpec, Inp/RangeTable, Inp/TableCards |
| `inp/Fmesh.py` | Inp/OptionTable, Inp/RangeTable, Inp/TableCards |
| `inp/Fmult.py` | Inp/RangeTable, Inp/TableCards |
| `inp/Fq.py` | Inp/RangeTable, Inp/TableCards |
| `inp/Fs.py` | Inp/RangeTable, Inp/TableCards |
| `inp/Ft.py` | Inp/FreeSpec, Inp/RangeTable, Inp/TableCards |
| `inp/Fu.py` | Inp/RangeTable, Inp/TableCards |
| `inp/Hsrc.py` | Inp/RangeTable, Inp/TableCards |
| `inp/Idum.py` | Inp/RangeTable, Inp/TableCards |
| `inp/Imp.py` | Inp/Put, Inp/RangeTable, Inp/TableCards |
| `inp/Kcode.py` | Inp/Card, Inp/Put, Inp/RangeTable, Inp/TableCards |
| `inp/Kopts.py` | Inp/OptionTable, Inp/TableCards |
| `inp/Kpert.py` | Inp/OptionTable, Inp/RangeTable, Inp/TableCards |
| `inp/Ksen.py` | Inp/OptionTable, Inp/RangeTable, Inp/TableCards |
| `inp/Ksrc.py` | Inp/RangeTable, Inp/RowSpec, Inp/TableCards |
| `inp/Lat.py` | Inp/RangeTable, Inp/TableCards |
| `inp/Lca.py` | Inp/RangeTable, Inp/TableCards |
| `inp/Lcc.py` | Inp/RangeTable, Inp/TableCards |
| `inp/Lea.py` | Inp/RangeTable, Inp/TableCards |
| `inp/Leb.py` | Inp/RangeTable, Inp/TableCards |
| `inp/Like.py` | Inp/RangeTable, Inp/TableCards, Inp/Value |
| `inp/Lost.py` | Inp/RangeTable, Inp/TableCards |
| `inp/M_0.py` | Inp/Formula, Inp/RangeTable, Inp/TableCards |
| `inp/M_1.py` | Inp/RangeTable, Inp/TableCards |
| `inp/Mesh.py` | Inp/OptionTable, Inp/TableCards |
| `inp/Mgopt.py` | Inp/RangeTable, Inp/TableCards |
| `inp/Mode.py` | Inp/RangeTable, Inp/TableCards |
| `inp/Mphys.py` | Inp/RangeTable, Inp/TableCards |
| `inp/Mplot.py` | Inp/OptionTable, Inp/TableCards |
| `inp/Mt.py` | Inp/RangeTable, Inp/TableCards |
| `inp/Mx.py` | Inp/RangeTable, Inp/TableCards |
| `inp/Nps.py` | Inp/RangeTable, Inp/TableCards, State/Data, State/Held |
| `inp/Otfdb.py` | Inp/RangeTable, Inp/TableCards |
| `inp/Pd.py` | Inp/RangeTable, Inp/TableCards |
| `inp/Pert.py` | Inp/OptionTable, Inp/RangeTable, Inp/TableCards |
| `inp/Phys_0.py` | Inp/RangeTable, Inp/TableCards |
| `inp/Phys_1.py` | Inp/RangeTable, Inp/TableCards |
| `inp/Phys_2.py` | Inp/PhysSpec, Inp/RangeTable, Inp/TableCards |
| `inp/Phys_3.py` | Inp/RangeTable, Inp/TableCards |
| `inp/Phys_4.py` | Inp/RangeTable, Inp/TableCards |
| `inp/Pikmt.py` | Inp/RangeTable, Inp/TableCards |
| `inp/Ptrac.py` | Inp/OptionTable, Inp/TableCards |
| `inp/Pwt.py` | Inp/RangeTable, Inp/TableCards |
| `inp/Rand.py` | Inp/OptionTable, Inp/TableCards, State/Data |
| `inp/Rdum.py` | Inp/RangeTable, Inp/TableCards |
| `inp/Sb_0.py` | Inp/KeywordSpec, Inp/RangeTable, Inp/TableCards |
| `inp/Sb_1.py` | Inp/RangeTable, Inp/TableCards |
| `inp/Sc.py` | Inp/RangeTable, Inp/TableCards |
| `inp/Sd.py` | Inp/RangeTable, Inp/TableCards |
| `inp/Sdef.py` | Inp/OptionTable, Inp/TableCards |
| `inp/Sf.py` | Inp/RangeTable, Inp/TableCards |
| `inp/Si_0.py` | Inp/KeywordSpec, Inp/RangeTable, Inp/TableCards |
| `inp/Si_1.py` | Inp/KeywordSpec, Inp/RangeTable, Inp/TableCards |
| `inp/Si_2.py` | Inp/KeywordSpec, Inp/RangeTable, Inp/TableCards |
| `inp/Sp_0.py` | Inp/KeywordSpec, Inp/RangeTable, Inp/TableCards |
| `inp/Sp_1.py` | Inp/RangeTable, Inp/TableCards |
| `inp/Spdtl.py` | Inp/RangeTable, Inp/TableCards |
| `inp/Ssr.py` | Inp/OptionTable, Inp/TableCards |
| `inp/Ssw.py` | Inp/RangeTable, Inp/TableCards |
| `inp/Stop.py` | Inp/OptionTable, Inp/TableCards |
| `inp/Surface.py` | Inp/RangeTable, Inp/TableCards, Inp/Value, State/Cell, State/Held |
| `inp/T_0.py` | Inp/RangeTable, Inp/TableCards |
| `inp/T_1.py` | Inp/OptionTable, Inp/RangeTable, Inp/TableCards |
| `inp/Tf_0.py` | Inp/RangeTable, Inp/TableCards |
| `inp/Tf_1.py` | Inp/RangeTable, Inp/TableCards |
| `inp/Thtme.py` | Inp/RangeTable, Inp/TableCards |
| `inp/Tm.py` | Inp/RangeTable, Inp/TableCards |
| `inp/Tmp.py` | Inp/RangeTable, Inp/TableCards |
| `inp/Totnu.py` | Inp/RangeTable, Inp/TableCards |
| `inp/Tr_0.py` | Inp/RangeTable, Inp/TableCards |
| `inp/Tr_1.py` | Inp/RangeTable, Inp/TableCards |
| `inp/Tr_2.py` | Inp/RangeTable, Inp/TableCards |
| `inp/Tr_3.py` | Inp/RangeTable, Inp/TableCards |
| `inp/Tr_4.py` | Inp/RangeTable, Inp/TableCards |
| `inp/Tropt.py` | Inp/OptionTable, Inp/TableCards |
| `inp/Tsplt.py` | Inp/RangeTable, Inp/TableCards |
| `inp/U.py` | Inp/RangeTable, Inp/TableCards |
| `inp/Unc.py` | Inp/RangeTable, Inp/TableCards |
| `inp/Uran.py` | Inp/RangeTable, Inp/RowSpec, Inp/TableCards |
| `inp/Var.py` | Inp/OptionTable, Inp/TableCards |
| `inp/Vol.py` | Inp/RangeTable, Inp/TableCards |
| `inp/Wwe.py` | Inp/RangeTable, Inp/TableCards |
| `inp/Wwg.py` | Inp/RangeTable, Inp/TableCards |
| `inp/Wwge.py` | Inp/RangeTable, Inp/TableCards |
| `inp/Wwgt.py` | Inp/RangeTable, Inp/TableCards |
| `inp/Wwn.py` | Inp/RangeTable, Inp/TableCards |
| `inp/Wwp.py` | Inp/RangeTable, Inp/TableCards |
| `inp/Wwt.py` | Inp/RangeTable, Inp/TableCards |
| `inp/Xs.py` | Inp/RangeTable, Inp/RowSpec, Inp/TableCards |
| `inp/_card.py` | Inp/Bare, Inp/Card, Inp/DataUnion, Inp/FilePrint, Inp/Text, Inp/Value, Inp/Whole |
| `inp/_entry.py` | Inp/Card, Inp/Value |
| `inp/_option.py` | Inp/Bare, Inp/Card, Inp/Value |
| `inp/_symbol.py` | Inp/AltLemmas, Inp/Card, Inp/Equal, Inp/Text |
| `inp/act/Dg.py` | Inp/RangeTable, Inp/TableOptions |
| `inp/act/Dgeb.py` | Inp/RangeTable, Inp/RowOption, Inp/TableOptions |
| `inp/act/Dn.py` | Inp/RangeTable, Inp/TableOptions |
| `inp/act/Dnbais.py` | Inp/RangeTable, Inp/TableOptions |
| `inp/act/Dneb.py` | Inp/RangeTable, Inp/RowOption, Inp/TableOptions |
| `inp/act/Fission.py` | Inp/RangeTable, Inp/TableOptions |
| `inp/act/Hlcut.py` | Inp/RangeTable, Inp/TableOptions |
| `inp/act/Nap.py` | Inp/RangeTable, Inp/TableOptions |
| `inp/act/Nonfiss.py` | Inp/RangeTable, Inp/TableOptions |
| `inp/act/Pecut.py` | Inp/RangeTable, Inp/TableOptions |
| `inp/act/Sample.py` | Inp/RangeTable, Inp/TableOptions |
| `inp/act/Thresh.py` | Inp/RangeTable, Inp/TableOptions |
| `inp/act/__init__.py` | Inp/OptionTable, Inp/TableOptions |
| `inp/act/_option.py` | Inp/Bare, Inp/Card, Inp/TableOptions, Inp/Value |
| `inp/act/dgeb/Bias.py` | Inp/RangeTable, Inp/TableOptions |
| `inp/act/dgeb/_entry.py` | Inp/Card, Inp/TableOptions |
| `inp/act/dneb/Bias.py` | Inp/RangeTable, Inp/TableOptions |
| `inp/act/dneb/_entry.py` | Inp/Card, Inp/TableOptions |
| `inp/bfld/Axs.py` | Inp/RangeTable, Inp/TableOptions |
| `inp/bfld/Ffedges.py` | Inp/RangeTable, Inp/TableOptions |
| `inp/bfld/Field.py` | Inp/RangeTable, Inp/TableOptions |
| `inp/bfld/Maxdeflc.py` | Inp/RangeTable, Inp/TableOptions |
| `inp/bfld/Maxstep.py` | Inp/RangeTable, Inp/TableOptions |
| `inp/bfld/Refpnt.py` | Inp/RangeTable, Inp/TableOptions |
| `inp/bfld/Vec.py` | Inp/RangeTable, Inp/TableOptions |
| `inp/bfld/__init__.py` | Inp/OptionTable, Inp/TableOptions |
| `inp/bfld/_option.py` | Inp/Bare, Inp/Card, Inp/TableOptions, Inp/Value |
| `inp/cell/Bflcl.py` | Inp/RangeTable, Inp/TableCell |
| `inp/cell/Cosy.py` | Inp/RangeTable, Inp/TableCell |
| `inp/cell/Dxc.py` | Inp/RangeTable, Inp/TableCell |
| `inp/cell/Elpt.py` | Inp/RangeTable, Inp/TableCell |
| `inp/cell/Ext.py` | Inp/RangeTable, Inp/TableCell |
| `inp/cell/Fcl.py` | Inp/RangeTable, Inp/TableCell |
| `inp/cell/Fill_0.py` | Inp/LatticeSpec, Inp/RangeTable, Inp/TableCell |
| `inp/cell/Fill_1.py` | Inp/DeepSpec, Inp/FillFormSpec, Inp/RangeTable, Inp/TableCell |
| `inp/cell/Fill_2.py` | Inp/FillLostCells, Inp/RangeTable, Inp/TableCell |
| `inp/cell/Fill_3.py` | Inp/RangeTable, Inp/TableCell |
| `inp/cell/Fill_4.py` | Inp/RangeTable, Inp/TableCell |
| `inp/cell/Fill_5.py` | Inp/RangeTable, Inp/TableCell |
| `inp/cell/Fill_6.py` | Inp/FillFormSpec, Inp/FillLostCells, Inp/RangeTable, Inp/TableCell |
| `inp/cell/Imp.py` | Inp/Put, Inp/RangeTable, Inp/TableCell |
| `inp/cell/Lat.py` | Inp/RangeTable, Inp/TableCell |
| `inp/cell/Nonu.py` | Inp/RangeTable, Inp/TableCell |
| `inp/cell/Pd.py` | Inp/RangeTable, Inp/TableCell |
| `inp/cell/Pwt.py` | Inp/RangeTable, Inp/TableCell |
| `inp/cell/Tmp.py` | Inp/RangeTable, Inp/TableCell |
| `inp/cell/Trcl_0.py` | Inp/RangeTable, Inp/TableCell, Inp/TransSpec |
| `inp/cell/Trcl_1.py` | Inp/RangeTable, Inp/TableCell, Inp/TransSpec |
| `inp/cell/Trcl_2.py` | Inp/RangeTable, Inp/TableCell |
| `inp/cell/Trcl_3.py` | Inp/RangeTable, Inp/TableCell |
| `inp/cell/Trcl_4.py` | Inp/RangeTable, Inp/TableCell |
| `inp/cell/Trcl_5.py` | Inp/RangeTable, Inp/TableCell, Inp/TransSpec |
| `inp/cell/U.py` | Inp/RangeTable, Inp/TableCell |
| `inp/cell/Unc.py` | Inp/RangeTable, Inp/TableCell |
| `inp/cell/Vol.py` | Inp/RangeTable, Inp/TableCell |
| `inp/cell/Wwn.py` | Inp/RangeTable, Inp/TableCell |
| `inp/cell/__init__.py` | Inp/CellSpec, Inp/TableCell |
| `inp/cell/_option.py` | Inp/Bare, Inp/Card, Inp/TableCell, Inp/Value |
| `inp/dawwg/Block.py` | Inp/RangeTable, Inp/TableDawwg |
| `inp/dawwg/Points.py` | Inp/RangeTable, Inp/TableDawwg |
| `inp/dawwg/Xsec.py` | Inp/RangeTable, Inp/TableDawwg |
| `inp/dawwg/__init__.py` | Inp/OptionTable, Inp/TableDawwg |
| `inp/dawwg/_option.py` | Inp/Bare, Inp/Card, Inp/TableDawwg, Inp/Value |
| `inp/dawwg/block/Ajed.py` | Inp/RangeTable, Inp/TableDawwg |
| `inp/dawwg/block/Angp.py` | Inp/RangeTable, Inp/TableDawwg |
| `inp/dawwg/block/Asback.py` | Inp/RangeTable, Inp/TableDawwg |
| `inp/dawwg/block/Asbott.py` | Inp/RangeTable, Inp/TableDawwg |
| `inp/dawwg/block/Asfrnt.py` | Inp/RangeTable, Inp/TableDawwg |
| `inp/dawwg/block/Asleft.py` | Inp/RangeTable, Inp/TableDawwg |
| `inp/dawwg/block/Asrite.py` | Inp/RangeTable, Inp/TableDawwg |
| `inp/dawwg/block/Astop.py` | Inp/RangeTable, Inp/TableDawwg |
| `inp/dawwg/block/Avatar.py` | Inp/RangeTable, Inp/TableDawwg |
| `inp/dawwg/block/Balp.py` | Inp/RangeTable, Inp/TableDawwg |
| `inp/dawwg/block/Balxs.py` | Inp/RangeTable, Inp/TableDawwg |
| `inp/dawwg/block/Byvolp.py` | Inp/RangeTable, Inp/TableDawwg |
| `inp/dawwg/block/Diffsol.py` | Inp/RangeTable, Inp/TableDawwg |
| `inp/dawwg/block/Edoutf.py` | Inp/RangeTable, Inp/TableDawwg |
| `inp/dawwg/block/Epsi.py` | Inp/RangeTable, Inp/TableDawwg |
| `inp/dawwg/block/Fissneut.py` | Inp/RangeTable, Inp/TableDawwg |
| `inp/dawwg/block/Fissrp.py` | Inp/RangeTable, Inp/TableDawwg |
| `inp/dawwg/block/Fluxone.py` | Inp/RangeTable, Inp/TableDawwg |
| `inp/dawwg/block/Fmmix.py` | Inp/RangeTable, Inp/TableDawwg |
| `inp/dawwg/block/Ibb.py` | Inp/RangeTable, Inp/TableDawwg |
| `inp/dawwg/block/Ibback.py` | Inp/RangeTable, Inp/TableDawwg |
| `inp/dawwg/block/Ibfrnt.py` | Inp/RangeTable, Inp/TableDawwg |
| `inp/dawwg/block/Ibl.py` | Inp/RangeTable, Inp/TableDawwg |
| `inp/dawwg/block/Ibr.py` | Inp/RangeTable, Inp/TableDawwg |
| `inp/dawwg/block/Ibt.py` | Inp/RangeTable, Inp/TableDawwg |
| `inp/dawwg/block/Ievt.py` | Inp/RangeTable, Inp/TableDawwg |
| `inp/dawwg/block/Iquad.py` | Inp/RangeTable, Inp/TableDawwg |
| `inp/dawwg/block/Isct.py` | Inp/RangeTable, Inp/TableDawwg |
| `inp/dawwg/block/Isn.py` | Inp/RangeTable, Inp/TableDawwg |
| `inp/dawwg/block/Ith.py` | Inp/RangeTable, Inp/TableDawwg |
| `inp/dawwg/block/Lib.py` | Inp/RangeTable, Inp/TableDawwg |
| `inp/dawwg/block/Libname.py` | Inp/RangeTable, Inp/TableDawwg |
| `inp/dawwg/block/Lng.py` | Inp/RangeTable, Inp/TableDawwg |
| `inp/dawwg/block/Massed.py` | Inp/RangeTable, Inp/TableDawwg |
| `inp/dawwg/block/Mt.py` | Inp/RangeTable, Inp/TableDawwg |
| `inp/dawwg/block/Ngroup.py` | Inp/RangeTable, Inp/TableDawwg |
| `inp/dawwg/block/Niso.py` | Inp/RangeTable, Inp/TableDawwg |
| `inp/dawwg/block/Noadjm.py` | Inp/RangeTable, Inp/TableDawwg |
| `inp/dawwg/block/Noasg.py` | Inp/RangeTable, Inp/TableDawwg |
| `inp/dawwg/block/Noedit.py` | Inp/RangeTable, Inp/TableDawwg |
| `inp/dawwg/block/Noedtt.py` | Inp/RangeTable, Inp/TableDawwg |
| `inp/dawwg/block/Nogeod.py` | Inp/RangeTable, Inp/TableDawwg |
| `inp/dawwg/block/Nomacr.py` | Inp/RangeTable, Inp/TableDawwg |
| `inp/dawwg/block/Nomix.py` | Inp/RangeTable, Inp/TableDawwg |
| `inp/dawwg/block/Norm.py` | Inp/RangeTable, Inp/TableDawwg |
| `inp/dawwg/block/Nosigf.py` | Inp/RangeTable, Inp/TableDawwg |
| `inp/dawwg/block/Noslnp.py` | Inp/RangeTable, Inp/TableDawwg |
| `inp/dawwg/block/Nosolv.py` | Inp/RangeTable, Inp/TableDawwg |
| `inp/dawwg/block/Ntichi.py` | Inp/RangeTable, Inp/TableDawwg |
| `inp/dawwg/block/Oitm.py` | Inp/RangeTable, Inp/TableDawwg |
| `inp/dawwg/block/Ptconv.py` | Inp/RangeTable, Inp/TableDawwg |
| `inp/dawwg/block/Pted.py` | Inp/RangeTable, Inp/TableDawwg |
| `inp/dawwg/block/Raflux.py` | Inp/RangeTable, Inp/TableDawwg |
| `inp/dawwg/block/Rmflux.py` | Inp/RangeTable, Inp/TableDawwg |
| `inp/dawwg/block/Rzflux.py` | Inp/RangeTable, Inp/TableDawwg |
| `inp/dawwg/block/Rzmflux.py` | Inp/RangeTable, Inp/TableDawwg |
| `inp/dawwg/block/Sourcp.py` | Inp/RangeTable, Inp/TableDawwg |
| `inp/dawwg/block/Srcacc.py` | Inp/RangeTable, Inp/TableDawwg |
| `inp/dawwg/block/Trcor.py` | Inp/RangeTable, Inp/TableDawwg |
| `inp/dawwg/block/Tsabeta.py` | Inp/RangeTable, Inp/TableDawwg |
| `inp/dawwg/block/Tsaepsi.py` | Inp/RangeTable, Inp/TableDawwg |
| `inp/dawwg/block/Tsaits.py` | Inp/RangeTable, Inp/TableDawwg |
| `inp/dawwg/block/Tsasn.py` | Inp/RangeTable, Inp/TableDawwg |
| `inp/dawwg/block/Xsectp.py` | Inp/RangeTable, Inp/TableDawwg |
| `inp/dawwg/block/Zned.py` | Inp/RangeTable, Inp/TableDawwg |
| `inp/dawwg/block/_option.py` | Inp/Bare, Inp/Card, Inp/TableDawwg, Inp/Value |
| `inp/dd/Diagnostic.py` | Inp/RangeTable, Inp/TableOptions |
| `inp/dd/_entry.py` | Inp/Card, Inp/TableOptions |
| `inp/df_1/Fac.py` | Inp/RangeTable, Inp/TableOptions |
| `inp/df_1/Ic.py` | Inp/RangeTable, Inp/TableOptions |
| `inp/df_1/Iu.py` | Inp/RangeTable, Inp/TableOptions |
| `inp/df_1/__init__.py` | Inp/OptionTable, Inp/TableOptions |
| `inp/df_1/_option.py` | Inp/Bare, Inp/Card, Inp/TableOptions, Inp/Value |
| `inp/ds_1/Variables.py` | Inp/RangeTable, Inp/TableOptions |
| `inp/ds_1/_entry.py` | Inp/Card, Inp/TableOptions |
| `inp/ds_2/Variables.py` | Inp/RangeTable, Inp/TableOptions |
| `inp/ds_2/_entry.py` | Inp/Card, Inp/TableOptions |
| `inp/dxt/Shell.py` | Inp/RangeTable, Inp/TableOptions |
| `inp/dxt/_entry.py` | Inp/Card, Inp/TableOptions |
| `inp/embed/Background.py` | Inp/RangeTable, Inp/TableOptions |
| `inp/embed/Calcvols.py` | Inp/RangeTable, Inp/TableOptions |
| `inp/embed/Debug.py` | Inp/RangeTable, Inp/TableOptions |
| `inp/embed/Filetype.py` | Inp/RangeTable, Inp/TableOptions |
| `inp/embed/Gmvfile.py` | Inp/RangeTable, Inp/TableOptions |
| `inp/embed/Length.py` | Inp/RangeTable, Inp/TableOptions |
| `inp/embed/Matcell.py` | Inp/RangeTable, Inp/RowOption, Inp/TableOptions |
| `inp/embed/Mcnpumfile.py` | Inp/RangeTable, Inp/TableOptions |
| `inp/embed/Meein.py` | Inp/RangeTable, Inp/TableOptions |
| `inp/embed/Meeout.py` | Inp/RangeTable, Inp/TableOptions |
| `inp/embed/Meshgeo.py` | Inp/RangeTable, Inp/TableOptions |
| `inp/embed/Mgeoin.py` | Inp/RangeTable, Inp/TableOptions |
| `inp/embed/__init__.py` | Inp/OptionTable, Inp/TableOptions |
| `inp/embed/_option.py` | Inp/Bare, Inp/Card, Inp/TableOptions, Inp/Value |
| `inp/embed/matcell/Entry.py` | Inp/RangeTable, Inp/TableOptions |
| `inp/embed/matcell/_entry.py` | Inp/Card, Inp/TableOptions |
| `inp/embee/Atom.py` | Inp/RangeTable, Inp/TableOptions |
| `inp/embee/Embed.py` | Inp/RangeTable, Inp/TableOptions |
| `inp/embee/Energy.py` | Inp/RangeTable, Inp/TableOptions |
| `inp/embee/Factor.py` | Inp/RangeTable, Inp/TableOptions |
| `inp/embee/List.py` | Inp/RangeTable, Inp/TableOptions |
| `inp/embee/Mat.py` | Inp/RangeTable, Inp/TableOptions |
| `inp/embee/Mtype.py` | Inp/RangeTable, Inp/TableOptions |
| `inp/embee/Time.py` | Inp/RangeTable, Inp/TableOptions |
| `inp/embee/__init__.py` | Inp/OptionTable, Inp/TableOptions |
| `inp/embee/_option.py` | Inp/Bare, Inp/Card, Inp/TableOptions, Inp/Value |
| `inp/f_1/Sphere.py` | Inp/DetectorSpec, Inp/RangeTable, Inp/TableOptions |
| `inp/f_1/_entry.py` | Inp/Card, Inp/TableOptions |
| `inp/f_2/Ring.py` | Inp/DetectorSpec, Inp/RangeTable, Inp/TableOptions |
| `inp/f_2/_entry.py` | Inp/Card, Inp/TableOptions |
| `inp/files/File.py` | Inp/FilesRead, Inp/RangeTable, Inp/TableOptions |
| `inp/files/_entry.py` | Inp/Card, Inp/TableOptions |
| `inp/fmesh/Axs.py` | Inp/RangeTable, Inp/TableOptions |
| `inp/fmesh/Eints.py` | Inp/RangeTable, Inp/TableOptions |
| `inp/fmesh/Emesh.py` | Inp/RangeTable, Inp/TableOptions |
| `inp/fmesh/Enorm.py` | Inp/RangeTable, Inp/TableOptions |
| `inp/fmesh/Factor.py` | Inp/RangeTable, Inp/TableOptions |
| `inp/fmesh/Geom.py` | Inp/RangeTable, Inp/TableOptions |
| `inp/fmesh/Iints.py` | Inp/RangeTable, Inp/TableOptions |
| `inp/fmesh/Imesh.py` | Inp/RangeTable, Inp/TableOptions |
| `inp/fmesh/Inc.py` | Inp/RangeTable, Inp/TableOptions |
| `inp/fmesh/Jints.py` | Inp/RangeTable, Inp/TableOptions |
| `inp/fmesh/Jmesh.py` | Inp/RangeTable, Inp/TableOptions |
| `inp/fmesh/Kclear.py` | Inp/RangeTable, Inp/TableOptions |
| `inp/fmesh/Kints.py` | Inp/RangeTable, Inp/TableOptions |
| `inp/fmesh/Kmesh.py` | Inp/RangeTable, Inp/TableOptions |
| `inp/fmesh/Origin.py` | Inp/RangeTable, Inp/TableOptions |
| `inp/fmesh/Out.py` | Inp/RangeTable, Inp/TableOptions |
| `inp/fmesh/Tints.py` | Inp/RangeTable, Inp/TableOptions |
| `inp/fmesh/Tmesh.py` | Inp/RangeTable, Inp/TableOptions |
| `inp/fmesh/Tnorm.py` | Inp/RangeTable, Inp/TableOptions |
| `inp/fmesh/Tr.py` | Inp/RangeTable, Inp/TableOptions |
| `inp/fmesh/Type.py` | Inp/RangeTable, Inp/TableOptions |
| `inp/fmesh/Vec.py` | Inp/RangeTable, Inp/TableOptions |
| `inp/fmesh/__init__.py` | Inp/OptionTable, Inp/TableOptions |
| `inp/fmesh/_option.py` | Inp/Bare, Inp/Card, Inp/TableOptions, Inp/Value |
| `inp/fmult/Data.py` | Inp/RangeTable, Inp/TableOptions |
| `inp/fmult/Method.py` | Inp/RangeTable, Inp/TableOptions |
| `inp/fmult/Sfnu.py` | Inp/RangeTable, Inp/TableOptions |
| `inp/fmult/Sfyield.py` | Inp/RangeTable, Inp/TableOptions |
| `inp/fmult/Shift.py` | Inp/RangeTable, Inp/TableOptions |
| `inp/fmult/Watt.py` | Inp/RangeTable, Inp/TableOptions |
| `inp/fmult/Width.py` | Inp/RangeTable, Inp/TableOptions |
| `inp/fmult/_option.py` | Inp/Bare, Inp/Card, Inp/TableOptions, Inp/Value |
| `inp/kopts/Blocksize.py` | Inp/RangeTable, Inp/TableOptions |
| `inp/kopts/Fmat.py` | Inp/RangeTable, Inp/TableOptions |
| `inp/kopts/Fmataccel.py` | Inp/RangeTable, Inp/TableOptions |
| `inp/kopts/Fmatncyc.py` | Inp/RangeTable, Inp/TableOptions |
| `inp/kopts/Fmatnx.py` | Inp/RangeTable, Inp/TableOptions |
| `inp/kopts/Fmatny.py` | Inp/RangeTable, Inp/TableOptions |
| `inp/kopts/Fmatnz.py` | Inp/RangeTable, Inp/TableOptions |
| `inp/kopts/Fmatreduce.py` | Inp/RangeTable, Inp/TableOptions |
| `inp/kopts/Fmatskpt.py` | Inp/RangeTable, Inp/TableOptions |
| `inp/kopts/Fmatspace.py` | Inp/RangeTable, Inp/TableOptions |
| `inp/kopts/Kinetics.py` | Inp/RangeTable, Inp/TableOptions |
| `inp/kopts/Ksental.py` | Inp/RangeTable, Inp/TableOptions |
| `inp/kopts/Precursor.py` | Inp/RangeTable, Inp/TableOptions |
| `inp/kopts/__init__.py` | Inp/OptionTable, Inp/TableOptions |
| `inp/kopts/_option.py` | Inp/Bare, Inp/Card, Inp/TableOptions, Inp/Value |
| `inp/kpert/Cell.py` | Inp/RangeTable, Inp/TableOptions |
| `inp/kpert/Erg.py` | Inp/RangeTable, Inp/TableOptions |
| `inp/kpert/Iso.py` | Inp/RangeTable, Inp/TableOptions |
| `inp/kpert/Linear.py` | Inp/RangeTable, Inp/TableOptions |
| `inp/kpert/Mat.py` | Inp/RangeTable, Inp/TableOptions |
| `inp/kpert/Rho.py` | Inp/RangeTable, Inp/TableOptions |
| `inp/kpert/Rxn.py` | Inp/RangeTable, Inp/TableOptions |
| `inp/kpert/__init__.py` | Inp/OptionTable, Inp/TableOptions |
| `inp/kpert/_option.py` | Inp/Bare, Inp/Card, Inp/TableOptions, Inp/Value |
| `inp/ksen/Constrain.py` | Inp/RangeTable, Inp/TableOptions |
| `inp/ksen/Cos.py` | Inp/RangeTable, Inp/TableOptions |
| `inp/ksen/Ein.py` | Inp/RangeTable, Inp/TableOptions |
| `inp/ksen/Erg.py` | Inp/RangeTable, Inp/TableOptions |
| `inp/ksen/Iso.py` | Inp/RangeTable, Inp/TableOptions |
| `inp/ksen/Legendre.py` | Inp/RangeTable, Inp/TableOptions |
| `inp/ksen/Mt.py` | Inp/RangeTable, Inp/TableOptions |
| `inp/ksen/Rxn.py` | Inp/RangeTable, Inp/TableOptions |
| `inp/ksen/__init__.py` | Inp/OptionTable, Inp/TableOptions |
| `inp/ksen/_option.py` | Inp/Bare, Inp/Card, Inp/TableOptions, Inp/Value |
| `inp/ksrc/Location.py` | Inp/RangeTable, Inp/TableOptions |
| `inp/ksrc/_entry.py` | Inp/Card, Inp/TableOptions |
| `inp/like/Bflcl.py` | Inp/RangeTable, Inp/TableCell |
| `inp/like/Cosy.py` | Inp/RangeTable, Inp/TableCell |
| `inp/like/Dxc.py` | Inp/RangeTable, Inp/TableCell |
| `inp/like/Elpt.py` | Inp/RangeTable, Inp/TableCell |
| `inp/like/Ext.py` | Inp/RangeTable, Inp/TableCell |
| `inp/like/Fcl.py` | Inp/RangeTable, Inp/TableCell |
| `inp/like/Fill_0.py` | Inp/LatticeSpec, Inp/RangeTable, Inp/TableCell |
| `inp/like/Fill_1.py` | Inp/DeepSpec, Inp/FillFormSpec, Inp/RangeTable, Inp/TableCell |
| `inp/like/Fill_2.py` | Inp/FillLostCells, Inp/RangeTable, Inp/TableCell |
| `inp/like/Fill_3.py` | Inp/RangeTable, Inp/TableCell |
| `inp/like/Fill_4.py` | Inp/RangeTable, Inp/TableCell |
| `inp/like/Fill_5.py` | Inp/RangeTable, Inp/TableCell |
| `inp/like/Fill_6.py` | Inp/FillFormSpec, Inp/FillLostCells, Inp/RangeTable, Inp/TableCell |
| `inp/like/Imp.py` | Inp/Put, Inp/RangeTable, Inp/TableCell |
| `inp/like/Lat.py` | Inp/RangeTable, Inp/TableCell |
| `inp/like/Mat.py` | Inp/RangeTable, Inp/TableCell |
| `inp/like/Nonu.py` | Inp/RangeTable, Inp/TableCell |
| `inp/like/Pd.py` | Inp/RangeTable, Inp/TableCell |
| `inp/like/Pwt.py` | Inp/RangeTable, Inp/TableCell |
| `inp/like/Rho.py` | Inp/RangeTable, Inp/TableCell |
| `inp/like/Tmp.py` | Inp/RangeTable, Inp/TableCell |
| `inp/like/Trcl_0.py` | Inp/RangeTable, Inp/TableCell, Inp/TransSpec |
| `inp/like/Trcl_1.py` | Inp/RangeTable, Inp/TableCell, Inp/TransSpec |
| `inp/like/Trcl_2.py` | Inp/RangeTable, Inp/TableCell |
| `inp/like/Trcl_3.py` | Inp/RangeTable, Inp/TableCell |
| `inp/like/Trcl_4.py` | Inp/RangeTable, Inp/TableCell |
| `inp/like/Trcl_5.py` | Inp/RangeTable, Inp/TableCell, Inp/TransSpec |
| `inp/like/U.py` | Inp/RangeTable, Inp/TableCell |
| `inp/like/Unc.py` | Inp/RangeTable, Inp/TableCell |
| `inp/like/Vol.py` | Inp/RangeTable, Inp/TableCell |
| `inp/like/Wwn.py` | Inp/RangeTable, Inp/TableCell |
| `inp/like/__init__.py` | Inp/LikeSpec, Inp/TableCell |
| `inp/like/_option.py` | Inp/Bare, Inp/Card, Inp/TableCell, Inp/Value |
| `inp/m_0/Alib.py` | Inp/RangeTable, Inp/TableOptions |
| `inp/m_0/Cond.py` | Inp/RangeTable, Inp/TableOptions |
| `inp/m_0/Dlib.py` | Inp/RangeTable, Inp/TableOptions |
| `inp/m_0/Elib.py` | Inp/RangeTable, Inp/TableOptions |
| `inp/m_0/Estep.py` | Inp/RangeTable, Inp/TableOptions |
| `inp/m_0/Gas.py` | Inp/RangeTable, Inp/TableOptions |
| `inp/m_0/Hlib.py` | Inp/RangeTable, Inp/TableOptions |
| `inp/m_0/Hstep.py` | Inp/RangeTable, Inp/TableOptions |
| `inp/m_0/Nlib.py` | Inp/RangeTable, Inp/TableOptions |
| `inp/m_0/Plib.py` | Inp/RangeTable, Inp/TableOptions |
| `inp/m_0/Pnlib.py` | Inp/RangeTable, Inp/TableOptions |
| `inp/m_0/Refc.py` | Inp/RangeTable, Inp/TableOptions |
| `inp/m_0/Refi.py` | Inp/RangeTable, Inp/TableOptions |
| `inp/m_0/Refs.py` | Inp/RangeTable, Inp/TableOptions |
| `inp/m_0/Slib.py` | Inp/RangeTable, Inp/TableOptions |
| `inp/m_0/Tlib.py` | Inp/RangeTable, Inp/TableOptions |
| `inp/m_0/_option.py` | Inp/Bare, Inp/Card, Inp/TableOptions, Inp/Value |
| `inp/mesh/Axs.py` | Inp/RangeTable, Inp/TableOptions |
| `inp/mesh/Geom.py` | Inp/RangeTable, Inp/TableOptions |
| `inp/mesh/Iints.py` | Inp/RangeTable, Inp/TableOptions |
| `inp/mesh/Imesh.py` | Inp/RangeTable, Inp/TableOptions |
| `inp/mesh/Jints.py` | Inp/RangeTable, Inp/TableOptions |
| `inp/mesh/Jmesh.py` | Inp/RangeTable, Inp/TableOptions |
| `inp/mesh/Kints.py` | Inp/RangeTable, Inp/TableOptions |
| `inp/mesh/Kmesh.py` | Inp/RangeTable, Inp/TableOptions |
| `inp/mesh/Origin.py` | Inp/RangeTable, Inp/TableOptions |
| `inp/mesh/Ref.py` | Inp/RangeTable, Inp/TableOptions |
| `inp/mesh/Vec.py` | Inp/RangeTable, Inp/TableOptions |
| `inp/mesh/__init__.py` | Inp/OptionTable, Inp/TableOptions |
| `inp/mesh/_option.py` | Inp/Bare, Inp/Card, Inp/TableOptions, Inp/Value |
| `inp/mplot/Contour.py` | Inp/RangeTable, Inp/TableMplot |
| `inp/mplot/Ebin.py` | Inp/RangeTable, Inp/TableMplot |
| `inp/mplot/Factor.py` | Inp/RangeTable, Inp/TableMplot |
| `inp/mplot/File.py` | Inp/RangeTable, Inp/TableMplot |
| `inp/mplot/Fixed.py` | Inp/RangeTable, Inp/TableMplot |
| `inp/mplot/Fmesh.py` | Inp/RangeTable, Inp/TableMplot |
| `inp/mplot/Fmrelerr.py` | Inp/RangeTable, Inp/TableMplot |
| `inp/mplot/Free.py` | Inp/RangeTable, Inp/TableMplot |
| `inp/mplot/Freq.py` | Inp/RangeTable, Inp/TableMplot |
| `inp/mplot/Kcode.py` | Inp/Card, Inp/Put, Inp/RangeTable, Inp/TableMplot |
| `inp/mplot/Label.py` | Inp/RangeTable, Inp/TableMplot |
| `inp/mplot/Mt.py` | Inp/RangeTable, Inp/TableMplot |
| `inp/mplot/Par.py` | Inp/RangeTable, Inp/TableMplot |
| `inp/mplot/Pert.py` | Inp/RangeTable, Inp/TableMplot |
| `inp/mplot/Reset.py` | Inp/RangeTable, Inp/TableMplot |
| `inp/mplot/Rmctal.py` | Inp/RangeTable, Inp/TableMplot |
| `inp/mplot/Runtpe.py` | Inp/RangeTable, Inp/TableMplot |
| `inp/mplot/Scales.py` | Inp/RangeTable, Inp/TableMplot |
| `inp/mplot/Set.py` | Inp/RangeTable, Inp/TableMplot |
| `inp/mplot/Subtitle.py` | Inp/RangeTable, Inp/TableMplot |
| `inp/mplot/Tal.py` | Inp/RangeTable, Inp/TableMplot |
| `inp/mplot/Tbin.py` | Inp/RangeTable, Inp/TableMplot |
| `inp/mplot/Term.py` | Inp/RangeTable, Inp/TableMplot |
| `inp/mplot/Tfc.py` | Inp/RangeTable, Inp/TableMplot |
| `inp/mplot/Thick.py` | Inp/RangeTable, Inp/TableMplot |
| `inp/mplot/Title.py` | Inp/RangeTable, Inp/TableMplot |
| `inp/mplot/Wash.py` | Inp/RangeTable, Inp/TableMplot |
| `inp/mplot/Wmctal.py` | Inp/RangeTable, Inp/TableMplot |
| `inp/mplot/Xlims.py` | Inp/RangeTable, Inp/TableMplot |
| `inp/mplot/Xs_0.py` | Inp/RangeTable, Inp/TableMplot |
| `inp/mplot/Xs_1.py` | Inp/RangeTable, Inp/TableMplot |
| `inp/mplot/Xs_2.py` | Inp/RangeTable, Inp/TableMplot |
| `inp/mplot/Xtitle.py` | Inp/RangeTable, Inp/TableMplot |
| `inp/mplot/Ylims.py` | Inp/RangeTable, Inp/TableMplot |
| `inp/mplot/Ytitle.py` | Inp/RangeTable, Inp/TableMplot |
| `inp/mplot/Zlev.py` | Inp/RangeTable, Inp/TableMplot |
| `inp/mplot/Ztitle.py` | Inp/RangeTable, Inp/TableMplot |
| `inp/mplot/__init__.py` | Inp/OptionTable, Inp/TableMplot |
| `inp/mplot/_option.py` | Inp/Bare, Inp/Card, Inp/TableMplot, Inp/Value |
| `inp/mplot/contour/_option.py` | Inp/Bare, Inp/Card, Inp/TableMplot, Inp/Value |
| `inp/mplot/free/_option.py` | Inp/Bare, Inp/Card, Inp/TableMplot, Inp/Value |
| `inp/pert/Cell.py` | Inp/RangeTable, Inp/TableOptions |
| `inp/pert/Erg.py` | Inp/RangeTable, Inp/TableOptions |
| `inp/pert/Mat.py` | Inp/RangeTable, Inp/TableOptions |
| `inp/pert/Method.py` | Inp/RangeTable, Inp/TableOptions |
| `inp/pert/Rho.py` | Inp/RangeTable, Inp/TableOptions |
| `inp/pert/Rxn.py` | Inp/RangeTable, Inp/TableOptions |
| `inp/pert/__init__.py` | Inp/OptionTable, Inp/TableOptions |
| `inp/pert/_option.py` | Inp/Bare, Inp/Card, Inp/TableOptions, Inp/Value |
| `inp/pikmt/Photonbias.py` | Inp/RangeTable, Inp/TableOptions |
| `inp/pikmt/_entry.py` | Inp/Card, Inp/TableOptions |
| `inp/ptrac/Buffer.py` | Inp/RangeTable, Inp/TableOptions |
| `inp/ptrac/Cell.py` | Inp/RangeTable, Inp/TableOptions |
| `inp/ptrac/Conic.py` | Inp/RangeTable, Inp/TableOptions |
| `inp/ptrac/Event.py` | Inp/RangeTable, Inp/TableOptions |
| `inp/ptrac/File.py` | Inp/RangeTable, Inp/TableOptions |
| `inp/ptrac/Filter.py` | Inp/RangeTable, Inp/TableOptions |
| `inp/ptrac/Max.py` | Inp/RangeTable, Inp/TableOptions |
| `inp/ptrac/Meph.py` | Inp/RangeTable, Inp/TableOptions |
| `inp/ptrac/Nps.py` | Inp/RangeTable, Inp/TableOptions |
| `inp/ptrac/Surface.py` | Inp/RangeTable, Inp/TableOptions |
| `inp/ptrac/Tally.py` | Inp/RangeTable, Inp/TableOptions |
| `inp/ptrac/Type.py` | Inp/RangeTable, Inp/TableOptions |
| `inp/ptrac/Value.py` | Inp/RangeTable, Inp/TableOptions |
| `inp/ptrac/Write.py` | Inp/RangeTable, Inp/TableOptions |
| `inp/ptrac/__init__.py` | Inp/OptionTable, Inp/TableOptions |
| `inp/ptrac/_option.py` | Inp/Bare, Inp/Card, Inp/TableOptions, Inp/Value |
| `inp/ptrac/filter/Entry.py` | Inp/FilterRead, Inp/RangeTable, Inp/TableOptions, Inp/Value |
| `inp/ptrac/filter/_entry.py` | Inp/Card, Inp/TableOptions |
| `inp/rand/Gen.py` | Inp/RangeTable, Inp/TableOptions |
| `inp/rand/Hist.py` | Inp/RangeTable, Inp/TableOptions |
| `inp/rand/Seed.py` | Inp/RangeTable, Inp/TableOptions, State/Data, State/Held |
| `inp/rand/Stride.py` | Inp/RangeTable, Inp/TableOptions |
| `inp/rand/__init__.py` | Inp/OptionTable, Inp/TableOptions |
| `inp/rand/_option.py` | Inp/Bare, Inp/Card, Inp/TableOptions, Inp/Value |
| `inp/sdef/Ara_0.py` | Inp/RangeTable, Inp/TableSdef |
| `inp/sdef/Ara_1.py` | Inp/RangeTable, Inp/TableSdef |
| `inp/sdef/Axs_0.py` | Inp/RangeTable, Inp/TableSdef |
| `inp/sdef/Axs_1.py` | Inp/RangeTable, Inp/TableSdef |
| `inp/sdef/Bap_0.py` | Inp/RangeTable, Inp/TableSdef |
| `inp/sdef/Bap_1.py` | Inp/RangeTable, Inp/TableSdef |
| `inp/sdef/Bem_0.py` | Inp/RangeTable, Inp/TableSdef |
| `inp/sdef/Bem_1.py` | Inp/RangeTable, Inp/TableSdef |
| `inp/sdef/Ccc_0.py` | Inp/RangeTable, Inp/TableSdef |
| `inp/sdef/Ccc_1.py` | Inp/RangeTable, Inp/TableSdef |
| `inp/sdef/Cel_0.py` | Inp/RangeTable, Inp/TableSdef |
| `inp/sdef/Cel_1.py` | Inp/RangeTable, Inp/TableSdef |
| `inp/sdef/Cel_2.py` | Inp/RangeTable, Inp/TableSdef |
| `inp/sdef/Dat_0.py` | Inp/RangeTable, Inp/TableSdef |
| `inp/sdef/Dat_1.py` | Inp/RangeTable, Inp/TableSdef |
| `inp/sdef/Dir_1.py` | Inp/RangeTable, Inp/TableSdef |
| `inp/sdef/Dir_2.py` | Inp/RangeTable, Inp/TableSdef |
| `inp/sdef/Eff_0.py` | Inp/RangeTable, Inp/TableSdef |
| `inp/sdef/Eff_1.py` | Inp/RangeTable, Inp/TableSdef |
| `inp/sdef/Erg_0.py` | Inp/RangeTable, Inp/TableSdef |
| `inp/sdef/Erg_1.py` | Inp/RangeTable, Inp/TableSdef |
| `inp/sdef/Erg_2.py` | Inp/RangeTable, Inp/TableSdef |
| `inp/sdef/Ext_0.py` | Inp/RangeTable, Inp/TableSdef |
| `inp/sdef/Ext_1.py` | Inp/RangeTable, Inp/TableSdef |
| `inp/sdef/Ext_2.py` | Inp/RangeTable, Inp/TableSdef |
| `inp/sdef/Loc_0.py` | Inp/RangeTable, Inp/TableSdef |
| `inp/sdef/Loc_1.py` | Inp/RangeTable, Inp/TableSdef |
| `inp/sdef/Nrm_0.py` | Inp/RangeTable, Inp/TableSdef |
| `inp/sdef/Nrm_1.py` | Inp/RangeTable, Inp/TableSdef |
| `inp/sdef/Par_0.py` | Inp/RangeTable, Inp/TableSdef |
| `inp/sdef/Par_1.py` | Inp/RangeTable, Inp/TableSdef |
| `inp/sdef/Pos_0.py` | Inp/RangeTable, Inp/TableSdef |
| `inp/sdef/Pos_1.py` | Inp/RangeTable, Inp/TableSdef |
| `inp/sdef/Pos_2.py` | Inp/RangeTable, Inp/TableSdef |
| `inp/sdef/Rad_0.py` | Inp/RangeTable, Inp/TableSdef |
| `inp/sdef/Rad_1.py` | Inp/RangeTable, Inp/TableSdef |
| `inp/sdef/Rad_2.py` | Inp/RangeTable, Inp/TableSdef |
| `inp/sdef/Sur_0.py` | Inp/RangeTable, Inp/TableSdef |
| `inp/sdef/Sur_1.py` | Inp/RangeTable, Inp/TableSdef |
| `inp/sdef/Tme_0.py` | Inp/RangeTable, Inp/TableSdef |
| `inp/sdef/Tme_1.py` | Inp/RangeTable, Inp/SourceSpec, Inp/TableSdef |
| `inp/sdef/Tme_2.py` | Inp/RangeTable, Inp/TableSdef |
| `inp/sdef/Tr_0.py` | Inp/RangeTable, Inp/TableSdef |
| `inp/sdef/Tr_1.py` | Inp/RangeTable, Inp/TableSdef |
| `inp/sdef/Tr_2.py` | Inp/RangeTable, Inp/TableSdef |
| `inp/sdef/Vec_0.py` | Inp/RangeTable, Inp/TableSdef |
| `inp/sdef/Vec_1.py` | Inp/RangeTable, Inp/TableSdef |
| `inp/sdef/Wgt_0.py` | Inp/RangeTable, Inp/TableSdef |
| `inp/sdef/Wgt_1.py` | Inp/RangeTable, Inp/TableSdef |
| `inp/sdef/X_0.py` | Inp/RangeTable, Inp/TableSdef |
| `inp/sdef/X_1.py` | Inp/RangeTable, Inp/TableSdef |
| `inp/sdef/X_2.py` | Inp/RangeTable, Inp/TableSdef |
| `inp/sdef/Y_0.py` | Inp/RangeTable, Inp/TableSdef |
| `inp/sdef/Y_1.py` | Inp/RangeTable, Inp/TableSdef |
| `inp/sdef/Y_2.py` | Inp/RangeTable, Inp/TableSdef |
| `inp/sdef/Z_0.py` | Inp/RangeTable, Inp/TableSdef |
| `inp/sdef/Z_1.py` | Inp/RangeTable, Inp/TableSdef |
| `inp/sdef/Z_2.py` | Inp/RangeTable, Inp/TableSdef |
| `inp/sdef/__init__.py` | Inp/OptionTable, Inp/SourceSpec, Inp/TableSdef |
| `inp/sdef/_option.py` | Inp/Bare, Inp/Card, Inp/TableSdef, Inp/Value |
| `inp/sdef/f/Fara.py` | Inp/RangeTable, Inp/TableSdef |
| `inp/sdef/f/Faxs.py` | Inp/RangeTable, Inp/TableSdef |
| `inp/sdef/f/Fbap.py` | Inp/RangeTable, Inp/TableSdef |
| `inp/sdef/f/Fbem.py` | Inp/RangeTable, Inp/TableSdef |
| `inp/sdef/f/Fccc.py` | Inp/RangeTable, Inp/TableSdef |
| `inp/sdef/f/Fcel.py` | Inp/RangeTable, Inp/TableSdef |
| `inp/sdef/f/Fdat.py` | Inp/RangeTable, Inp/TableSdef |
| `inp/sdef/f/Fdir.py` | Inp/RangeTable, Inp/TableSdef |
| `inp/sdef/f/Feff.py` | Inp/RangeTable, Inp/TableSdef |
| `inp/sdef/f/Ferg.py` | Inp/RangeTable, Inp/TableSdef |
| `inp/sdef/f/Fext.py` | Inp/RangeTable, Inp/TableSdef |
| `inp/sdef/f/Floc.py` | Inp/RangeTable, Inp/TableSdef |
| `inp/sdef/f/Fnrm.py` | Inp/RangeTable, Inp/TableSdef |
| `inp/sdef/f/Fpar.py` | Inp/RangeTable, Inp/TableSdef |
| `inp/sdef/f/Fpos.py` | Inp/RangeTable, Inp/TableSdef |
| `inp/sdef/f/Frad.py` | Inp/RangeTable, Inp/TableSdef |
| `inp/sdef/f/Fsur.py` | Inp/RangeTable, Inp/TableSdef |
| `inp/sdef/f/Ftme.py` | Inp/RangeTable, Inp/TableSdef |
| `inp/sdef/f/Ftr.py` | Inp/RangeTable, Inp/TableSdef |
| `inp/sdef/f/Fvec.py` | Inp/RangeTable, Inp/TableSdef |
| `inp/sdef/f/Fwgt.py` | Inp/RangeTable, Inp/TableSdef |
| `inp/sdef/f/Fx.py` | Inp/RangeTable, Inp/TableSdef |
| `inp/sdef/f/Fy.py` | Inp/RangeTable, Inp/TableSdef |
| `inp/sdef/f/Fz.py` | Inp/RangeTable, Inp/TableSdef |
| `inp/sdef/f/__init__.py` | Inp/SourceSpec, Inp/TableSdef |
| `inp/sdef/f/_option.py` | Inp/Bare, Inp/Card, Inp/TableSdef, Inp/Value |
| `inp/sdef/tme_1/Embedded.py` | Inp/Card, Inp/Value |
| `inp/sdef/tme_1/_entry.py` | Inp/Card |
| `inp/ssr/Axs.py` | Inp/RangeTable, Inp/TableOptions |
| `inp/ssr/Bcw.py` | Inp/RangeTable, Inp/TableOptions |
| `inp/ssr/Cel.py` | Inp/RangeTable, Inp/TableOptions |
| `inp/ssr/Col.py` | Inp/RangeTable, Inp/TableOptions |
| `inp/ssr/Ext.py` | Inp/RangeTable, Inp/TableOptions |
| `inp/ssr/New.py` | Inp/RangeTable, Inp/TableOptions |
| `inp/ssr/Old.py` | Inp/RangeTable, Inp/TableOptions |
| `inp/ssr/Poa.py` | Inp/RangeTable, Inp/TableOptions |
| `inp/ssr/Psc.py` | Inp/RangeTable, Inp/TableOptions |
| `inp/ssr/Pty.py` | Inp/RangeTable, Inp/TableOptions |
| `inp/ssr/Tr_0.py` | Inp/RangeTable, Inp/TableOptions |
| `inp/ssr/Tr_1.py` | Inp/RangeTable, Inp/TableOptions |
| `inp/ssr/Wgt.py` | Inp/RangeTable, Inp/TableOptions |
| `inp/ssr/__init__.py` | Inp/OptionTable, Inp/TableOptions |
| `inp/ssr/_option.py` | Inp/Bare, Inp/Card, Inp/TableOptions, Inp/Value |
| `inp/ssw/Cel.py` | Inp/RangeTable, Inp/TableOptions |
| `inp/ssw/Pty.py` | Inp/RangeTable, Inp/TableOptions |
| `inp/ssw/Sym.py` | Inp/RangeTable, Inp/TableOptions |
| `inp/ssw/__init__.py` | Inp/SswSpec, Inp/TableOptions |
| `inp/ssw/_option.py` | Inp/Bare, Inp/Card, Inp/TableOptions, Inp/Value |
| `inp/stop/Ctme.py` | Inp/RangeTable, Inp/TableOptions |
| `inp/stop/F.py` | Inp/RangeTable, Inp/TableOptions |
| `inp/stop/Nps.py` | Inp/RangeTable, Inp/TableOptions |
| `inp/stop/__init__.py` | Inp/OptionTable, Inp/TableOptions |
| `inp/stop/_option.py` | Inp/Bare, Inp/Card, Inp/TableOptions, Inp/Value |
| `inp/surface/Arb.py` | Inp/RangeTable, Inp/TableSurface |
| `inp/surface/Box.py` | Inp/RangeTable, Inp/TableSurface |
| `inp/surface/C_x.py` | Inp/RangeTable, Inp/TableSurface |
| `inp/surface/C_y.py` | Inp/RangeTable, Inp/TableSurface |
| `inp/surface/C_z.py` | Inp/RangeTable, Inp/TableSurface |
| `inp/surface/Cx.py` | Inp/RangeTable, Inp/TableSurface |
| `inp/surface/Cy.py` | Inp/RangeTable, Inp/TableSurface |
| `inp/surface/Cz.py` | Inp/RangeTable, Inp/TableSurface |
| `inp/surface/Ell.py` | Inp/RangeTable, Inp/TableSurface |
| `inp/surface/Gq.py` | Inp/RangeTable, Inp/TableSurface |
| `inp/surface/K_x.py` | Inp/RangeTable, Inp/TableSurface |
| `inp/surface/K_y.py` | Inp/RangeTable, Inp/TableSurface |
| `inp/surface/K_z.py` | Inp/RangeTable, Inp/TableSurface |
| `inp/surface/Kx.py` | Inp/RangeTable, Inp/TableSurface |
| `inp/surface/Ky.py` | Inp/RangeTable, Inp/TableSurface |
| `inp/surface/Kz.py` | Inp/RangeTable, Inp/TableSurface |
| `inp/surface/P_0.py` | Inp/RangeTable, Inp/TableSurface |
| `inp/surface/P_1.py` | Inp/Card, Inp/TableSurface |
| `inp/surface/Px.py` | Inp/RangeTable, Inp/TableSurface |
| `inp/surface/Py.py` | Inp/RangeTable, Inp/TableSurface |
| `inp/surface/Pz.py` | Inp/RangeTable, Inp/TableSurface |
| `inp/surface/Rcc.py` | Inp/RangeTable, Inp/TableSurface |
| `inp/surface/Rec.py` | Inp/RangeTable, Inp/TableSurface |
| `inp/surface/Rhp.py` | Inp/RangeTable, Inp/TableSurface |
| `inp/surface/Rpp.py` | Inp/RangeTable, Inp/TableSurface |
| `inp/surface/S.py` | Inp/RangeTable, Inp/TableSurface |
| `inp/surface/So.py` | Inp/RangeTable, Inp/TableSurface |
| `inp/surface/Sph.py` | Inp/RangeTable, Inp/TableSurface |
| `inp/surface/Sq.py` | Inp/RangeTable, Inp/TableSurface |
| `inp/surface/Sx.py` | Inp/RangeTable, Inp/TableSurface |
| `inp/surface/Sy.py` | Inp/RangeTable, Inp/TableSurface |
| `inp/surface/Sz.py` | Inp/RangeTable, Inp/TableSurface |
| `inp/surface/Trc.py` | Inp/RangeTable, Inp/TableSurface |
| `inp/surface/Tx.py` | Inp/RangeTable, Inp/TableSurface |
| `inp/surface/Ty.py` | Inp/RangeTable, Inp/TableSurface |
| `inp/surface/Tz.py` | Inp/RangeTable, Inp/TableSurface |
| `inp/surface/Wed.py` | Inp/RangeTable, Inp/TableSurface |
| `inp/surface/X.py` | Inp/RangeTable, Inp/TableSurface |
| `inp/surface/Y.py` | Inp/RangeTable, Inp/TableSurface |
| `inp/surface/Z.py` | Inp/RangeTable, Inp/TableSurface |
| `inp/surface/__init__.py` | Inp/SurfaceSpec, Inp/TableSurface |
| `inp/surface/_option.py` | Inp/Bare, Inp/Card, Inp/TableSurface, Inp/Value |
| `inp/t_1/Cbeg.py` | Inp/RangeTable, Inp/TableOptions |
| `inp/t_1/Cend.py` | Inp/RangeTable, Inp/TableOptions |
| `inp/t_1/Cfrq.py` | Inp/RangeTable, Inp/TableOptions |
| `inp/t_1/Cofi.py` | Inp/RangeTable, Inp/TableOptions |
| `inp/t_1/Coni.py` | Inp/RangeTable, Inp/TableOptions |
| `inp/t_1/Csub.py` | Inp/RangeTable, Inp/TableOptions |
| `inp/t_1/__init__.py` | Inp/OptionTable, Inp/TableOptions |
| `inp/t_1/_option.py` | Inp/Bare, Inp/Card, Inp/TableOptions, Inp/Value |
| `inp/tropt/Eloss.py` | Inp/RangeTable, Inp/TableOptions |
| `inp/tropt/Mcscat.py` | Inp/RangeTable, Inp/TableOptions |
| `inp/tropt/Nescat.py` | Inp/RangeTable, Inp/TableOptions |
| `inp/tropt/Nreact.py` | Inp/RangeTable, Inp/TableOptions |
| `inp/tropt/__init__.py` | Inp/OptionTable, Inp/TableOptions |
| `inp/tropt/_option.py` | Inp/Bare, Inp/Card, Inp/TableOptions, Inp/Value |
| `inp/uran/Stochastic.py` | Inp/RangeTable, Inp/TableOptions |
| `inp/uran/_entry.py` | Inp/Card, Inp/TableOptions |
| `inp/var/Rr.py` | Inp/RangeTable, Inp/TableOptions |
| `inp/var/__init__.py` | Inp/OptionTable, Inp/TableOptions |
| `inp/var/_option.py` | Inp/Bare, Inp/Card, Inp/TableOptions, Inp/Value |
| `meshtal/Header.py` | Meshtal/File |
| `meshtal/Tally.py` | Meshtal/File |
| `outp/AnalysisTallyFluctuation.py` | Outp/Block |
| `outp/Header.py` | Outp/File |
| `outp/Mcnp.py` | Outp/Block |
| `outp/NeutronActivity.py` | Outp/Block |
| `outp/PhotonActivity.py` | Outp/Block |
| `outp/ProblemSummary.py` | Outp/Block |
| `outp/StartingMcrun.py` | Outp/Block |
| `outp/Tally_1A.py` | Outp/Tally |
| `outp/Tally_1B.py` | Outp/Tally |
| `outp/Tally_2.py` | Outp/Tally |
| `outp/Tally_4.py` | Outp/Tally |
| `outp/Tally_8.py` | Outp/File |
| `outp/Tally_8A.py` | Outp/File, Outp/Tally |
| `outp/Tally_8B.py` | Outp/Tally |
| `outp/UnnormedTallyDensity.py` | Outp/Block |
| `outp/__init__.py` | Outp/File |
| `outp/tally/Subtally_1.py` | Outp/File, Outp/Plot, Outp/Tally |
| `outp/tally/Subtally_2.py` | Outp/File, Outp/Plot, Outp/Tally |
| `outp/tally/Subtally_4.py` | Outp/File, Outp/Plot, Outp/Tally |
| `outp/tally/subtally/Line.py` | Outp/File, Outp/Tally |
| `ptrac/Header.py` | Ptrac/Header |
| `ptrac/History.py` | Ptrac/Event |
| `ptrac/_keyword.py` | Ptrac/Line |
| `ptrac/header/L.py` | Ptrac/Header |
| `ptrac/header/N.py` | Ptrac/Header |
| `ptrac/header/V.py` | Ptrac/Header |
| `ptrac/history/Event.py` | Ptrac/Event |
| `ptrac/history/I.py` | Ptrac/Line |
| `ptrac/history/event/J_0.py` | Ptrac/Line |
| `ptrac/history/event/J_1.py` | Ptrac/Line |
| `ptrac/history/event/J_2.py` | Ptrac/Line |
| `ptrac/history/event/J_3.py` | Ptrac/Line |
| `ptrac/history/event/J_4.py` | Ptrac/Line |
| `ptrac/history/event/J_5.py` | Ptrac/Line |
| `ptrac/history/event/J_6.py` | Ptrac/Line |
| `ptrac/history/event/J_7.py` | Ptrac/Line |
| `ptrac/history/event/P_0.py` | Ptrac/Line, Show/Shape |
| `ptrac/history/event/P_1.py` | Ptrac/Line, Show/Shape |
| `ptrac/history/event/j/EventType.py` | Ptrac/Line |
| `types/Designator.py` | Inp/Card, Types/Scalar |
| `types/Distribution.py` | Inp/Card, Types/Scalar |
| `types/Generator.py` | Meshtal/File, Outp/Tally, Types/Lazy |
| `types/Geometry.py` | Py/Err, Show/Cells, Types/Geometry, Types/Regions |
| `types/Horizontal.py` | Types/Number |
| `types/Index.py` | Inp/Card, Types/Scalar |
| `types/Integer.py` | Inp/Card, Ptrac/Line, State/Cell, State/Held, Types/Hash, Types/Number, Types/Operators, Types/Powers, Types/Rounding, Types/Text |
| `types/Lattice.py` | Inp/Card, Py/Err, Types/Lattice |
| `types/Real.py` | Inp/Card, Ptrac/Header, Ptrac/Line, Types/Division, Types/Hash, Types/Number, Types/Operators, Types/RealOps, Types/Rounding |
| `types/String.py` | Inp/Card, Meshtal/File, Outp/Block, Types/Scalar, Types/Text |
| `types/Substance.py` | Inp/Card, Types/Scalar |
| `types/Transformation.py` | Inp/Card, Inp/TransSpec, Inp/Value |
| `types/Tuple.py` | Inp/Card, Inp/Value, Outp/Tally, Ptrac/Header, Types/Lazy, Types/Text |
| `types/Union.py` | Inp/CardUnion, State/Whole |
| `types/Zaid.py` | Inp/Card, Types/Scalar |

## Which parts are not modelled

* `_cli/main.py` and the argument parsing of the other commands (docopt), what matplotlib draws (C83), `_doer.py`.
* Drawing: of `Visualize.py` and `_show/**` the sets of points are modelled (C78, C79, C81), over the real
  numbers; pyvista itself, the rounding of `float`, the approximation
  by polygons and the meshes of prisms and wedges are not. Options of cells other than `trcl`, and
  what `fill` and universes mean, are not looked at.
* `errors/*.py`: in the parsers only the class of an error is modelled, not its text; the texts are modelled apart (C76).
* Comparison, arithmetic, hashing and conversion operators of `types/*.py`, unless cited (powers of `Real` are not).
* `outp/Tally_8.py`: no other file imports it, so it takes no part in reading output files.
* `to_dataframe`, `to_numpy` and similar conversions beyond the texts of their cells (and, for tallies, their numbers, C103).
* `inp/**`: the class methods that merely forward, documentation, and type annotations.
* `molmass` (C80): the composition of a formula is an argument, with what the library promises of it as a hypothesis.
* Base classes without behaviour (`_block.py`, `_line.py`, `_subblock.py`, `__init__.py`).

## Testing the theorems

`seeded/LOG.jsonl` lists the edits made to scratch copies of the model: the definition, the
edit, the claim it breaks, the theorems that failed, and the theorems tightened where an edit
went unnoticed.
