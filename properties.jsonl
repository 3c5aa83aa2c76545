{"id": "C01", "title": "Real values survive print and parse exactly", "statement": "For every finite decimal number x, Real.from_mcnp(Real(x).to_mcnp()) yields the same sign, digits and exponent as x; in particular no digit is lost and the number is not mistaken for a shorthand (repeat, jump, ...) or re-split as an implicit exponent.", "quantifier": "every finite decimal (sign, arbitrary coefficient, arbitrary exponent)", "why_tests_cant": "There are infinitely many decimals, and the printer switches between plain and scientific notation by magnitude; a finite sample cannot cover every notation boundary combined with the exponent-rewriting substitution of the parser.", "anchors": ["src/pymcnp/types/Real.py: Real.from_mcnp, Real.to_mcnp"]}
{"id": "C02", "title": "Integer values survive print and parse", "statement": "For every integer n, Integer.from_mcnp(Integer(n).to_mcnp()) has value n.", "quantifier": "every integer, positive or negative, of any length", "why_tests_cant": "Unbounded domain.", "anchors": ["src/pymcnp/types/Integer.py: Integer.from_mcnp, Integer.to_mcnp"]}
{"id": "C03", "title": "Parsing an integer never changes the number written", "statement": "If Integer.from_mcnp(text) succeeds with a value, that value is numerically equal to the number the text denotes (a fractional text must be rejected, not truncated).", "quantifier": "every text accepted as an integer", "why_tests_cant": "Tests only try whole numbers; the truncation is only visible on texts outside the samples.", "anchors": ["src/pymcnp/types/Integer.py: Integer.from_mcnp"]}
{"id": "C04", "title": "MCNP exponent spellings denote the same number", "statement": "For every mantissa m and exponent e, the MCNP spellings m+e / m-e (no letter), mDe and mdE (FORTRAN double) parse to the same Real as mEe.", "quantifier": "every digit string mantissa (with optional sign and point) and every signed exponent", "why_tests_cant": "Unbounded combinations of mantissa, sign and exponent digits.", "anchors": ["src/pymcnp/types/Real.py: Real.from_mcnp", "src/pymcnp/types/Integer.py: Integer.from_mcnp"]}
{"id": "C05", "title": "Numeric parsing fails only with the documented error", "statement": "Real.from_mcnp and Integer.from_mcnp either return a value or raise TypesError, for every text (no IndexError, OverflowError or ValueError escapes).", "quantifier": "every text", "why_tests_cant": "The undocumented exceptions are triggered by texts no test writer lists (empty text, inf, nan); absence can only be shown by covering all texts.", "anchors": ["src/pymcnp/types/Real.py: Real.from_mcnp", "src/pymcnp/types/Integer.py: Integer.from_mcnp"]}
{"id": "C06", "title": "Horizontal shorthands survive print and parse", "statement": "For each shorthand value (nR, nI, nM, nJ, nLOG, nILOG) and every count n allowed by its constructor, printing and parsing returns an equal value of the same kind.", "quantifier": "every shorthand kind and every allowed count", "why_tests_cant": "Infinitely many counts; the failing ones (count zero, ILOG) are corner values.", "anchors": ["src/pymcnp/types/Horizontal.py: Repeat, Insert, Multiply, Jump, Log"]}
{"id": "C07", "title": "ZAID round trip", "statement": "For every atomic number z and mass number a in 0..999 and every library suffix without whitespace, Zaid.from_mcnp(Zaid(z,a,abx).to_mcnp()) is the same nuclide.", "quantifier": "all z, a in 0..999 and all suffixes", "why_tests_cant": "10^6 nuclides times unbounded suffixes; leading zeros and the greedy split of the digits interact.", "anchors": ["src/pymcnp/types/Zaid.py: Zaid"]}
{"id": "C08", "title": "Distribution reference round trip", "statement": "For every distribution number n in 0..999, Distribution.from_mcnp(Distribution(n).to_mcnp()) refers to distribution n, and texts with trailing garbage are rejected.", "quantifier": "n in 0..999; every text", "why_tests_cant": "Unit tests use a one-digit number; the defect is only visible from two digits on.", "anchors": ["src/pymcnp/types/Distribution.py: Distribution.from_mcnp, to_mcnp"]}
{"id": "C09", "title": "Constructed scalar types respect their documented ranges", "statement": "However a Zaid, Distribution, Repeat, Insert, Multiply, Jump or Log object is obtained (constructor or text), its numbers are inside the documented range; and the constructors accept every value inside that range.", "quantifier": "every constructor argument and every text", "why_tests_cant": "Ranges must hold for all inputs, including ones produced by text parsing.", "anchors": ["src/pymcnp/types/Zaid.py", "src/pymcnp/types/Distribution.py", "src/pymcnp/types/Horizontal.py"]}
{"id": "C10", "title": "Index range round trip", "statement": "For all integers l and u, Index.from_mcnp(Index(l,u).to_mcnp()) has lower l and upper u.", "quantifier": "all pairs of integers (negative included)", "why_tests_cant": "Unbounded; the greedy split at the colon must be right for all.", "anchors": ["src/pymcnp/types/Index.py: Index"]}
{"id": "C11", "title": "Geometry text is stable under parse and print", "statement": "If Geometry.from_mcnp(text) succeeds with g, then Geometry.from_mcnp(g.to_mcnp()) succeeds and gives an identical expression tree; hence repeated fixing does not drift.", "quantifier": "every accepted geometry text", "why_tests_cant": "Expression trees are unbounded in depth.", "anchors": ["src/pymcnp/types/Geometry.py: Geometry.from_mcnp, Geometry.to_mcnp"]}
{"id": "C12", "title": "Geometry parsing follows MCNP precedence", "statement": "The region denoted by Geometry.from_mcnp(text) is the region MCNP assigns to text: complement binds tightest, then intersection (juxtaposition), then union (colon).", "quantifier": "every geometry expression", "why_tests_cant": "Tests check a handful of strings and never evaluate the denoted region.", "anchors": ["src/pymcnp/types/Geometry.py: _Intersection.from_mcnp, _Union.from_mcnp"]}
{"id": "C13", "title": "Composing geometries in Python preserves meaning when printed", "statement": "For geometries a, b: the text printed for the composition (&, |, unary -, +, ~) of a and b, when read back, denotes the documented combination of the regions of a and b.", "quantifier": "all operand geometries (any shape)", "why_tests_cant": "Operand shapes are unbounded; missing parentheses only show for compound operands.", "anchors": ["src/pymcnp/types/Geometry.py: Geometry.__and__, __or__, __neg__, __pos__, __invert__"]}
{"id": "C14", "title": "Visualising a cell evaluates its geometry as a Boolean expression", "statement": "The shape produced for a cell contains exactly the points for which the geometry expression, evaluated over the surface senses, is true; the complement operator always complements.", "quantifier": "every geometry expression, every assignment of surface shapes, every point", "why_tests_cant": "Quantifies over all points and all expressions.", "anchors": ["src/pymcnp/types/Geometry.py: to_show", "src/pymcnp/_show/pyvista/PyvistaShape.py"]}
{"id": "C15", "title": "Geometry parsing fails only with the documented error", "statement": "Geometry.from_mcnp(text) returns a geometry or raises TypesError for every text.", "quantifier": "every text", "why_tests_cant": "Escaping AssertionError/IndexError appear only on malformed texts that tests do not list.", "anchors": ["src/pymcnp/types/Geometry.py: Geometry.from_mcnp"]}
{"id": "C16", "title": "Lattice text is stable under parse and print", "statement": "If Lattice.from_mcnp(text) succeeds with x, parsing x.to_mcnp() gives the same expression.", "quantifier": "every accepted lattice text", "why_tests_cant": "Unbounded nesting.", "anchors": ["src/pymcnp/types/Lattice.py: Lattice.from_mcnp, to_mcnp"]}
{"id": "C17", "title": "Lattice index ranges of every mixture are accepted", "statement": "A lattice element specification c[i j k] is accepted for every choice of single index or lo:hi range in each of the three positions.", "quantifier": "all eight single/range mixtures and all integers", "why_tests_cant": "Tests use only uniform mixtures.", "anchors": ["src/pymcnp/types/Lattice.py: _Range.from_mcnp"]}
{"id": "C18", "title": "Line wrapping loses no text", "statement": "For every card text made of a keyword and entries separated by single blanks (entries free of blanks, line ends, '&', '=' and '$', not ending in '(' nor starting with ')', shorthand letters in lower case and uncounted; counted shorthand is C20), reading back the wrapped text the printer produces (continuation lines, ampersands, compressed shorthand) recovers exactly the original words in order.", "quantifier": "every sequence of words", "why_tests_cant": "The break positions depend on all word lengths; infinitely many combinations.", "anchors": ["src/pymcnp/inp/_card.py: Card._postprocess", "src/pymcnp/inp/_symbol.py: InpNonterminal._preprocess"]}
{"id": "C19", "title": "Printed lines respect the column limit", "statement": "Every physical line of a printed card has at most 80 columns.", "quantifier": "every card whose words are short enough to fit", "why_tests_cant": "Depends on the accumulated lengths of arbitrary word sequences.", "anchors": ["src/pymcnp/inp/_card.py: Card._postprocess"]}
{"id": "C20", "title": "Jump shorthand compression is lossless", "statement": "Compressing runs of j/r/i/log/ilog entries when printing and expanding counted entries when reading are inverse: the reader sees exactly the entries the object held.", "quantifier": "every word sequence", "why_tests_cant": "Arbitrary run lengths and arrangements of adjacent counted entries.", "anchors": ["src/pymcnp/inp/_card.py: Card._postprocess", "src/pymcnp/inp/_symbol.py: InpNonterminal._preprocess"]}
{"id": "C21", "title": "Tabs and repeated blanks are insignificant", "statement": "Reading a card does not depend on how much blank space, or whether tabs, separate its entries.", "quantifier": "every card text and every re-spacing of it", "why_tests_cant": "All spacings of all cards.", "anchors": ["src/pymcnp/inp/_symbol.py: InpNonterminal._preprocess"]}
{"id": "C22", "title": "Inline comments survive a read-write cycle", "statement": "Text after $ on a card line is still present after the card is read and printed (fix does not delete user comments).", "quantifier": "every card line with a comment", "why_tests_cant": "Needs all cards and comments.", "anchors": ["src/pymcnp/inp/_card.py: Card.from_mcnp, Card.to_mcnp", "src/pymcnp/Check.py: Check.fix"]}
{"id": "C23", "title": "Card and option round trip", "statement": "For every card, option and entry class and every choice of attribute values the constructor accepts (with entries free of blanks), reading the printed text gives back the same attribute values.", "quantifier": "all ~700 classes and all attribute values", "why_tests_cant": "Tests exercise one example text per class; the attribute space is infinite and ambiguous patterns only show on other values.", "anchors": ["src/pymcnp/inp/_card.py: Card.from_mcnp, to_mcnp", "src/pymcnp/inp/_option.py", "src/pymcnp/inp/_entry.py"]}
{"id": "C24", "title": "Omitted positional entries do not shift later ones", "statement": "If an optional positional entry of a card is left unset while a later one is set, reading the printed card assigns the later value to the same attribute.", "quantifier": "every card with two or more optional positional entries and every subset of set entries", "why_tests_cant": "Exponentially many subsets over dozens of cards.", "anchors": ["src/pymcnp/inp/_card.py: Card.to_mcnp", "src/pymcnp/inp/Cut.py", "src/pymcnp/inp/Prdmp.py", "src/pymcnp/inp/Kcode.py", "src/pymcnp/inp/surface/Rhp.py"]}
{"id": "C25", "title": "Every field of a card text reaches its own attribute", "statement": "When a card text is accepted, each attribute is computed from the part of the text that the syntax assigns to that attribute (no attribute is filled from a fragment of another entry, no entry is dropped).", "quantifier": "every card/option/entry class and every accepted text", "why_tests_cant": "Requires comparing the capture group used for each attribute in all classes against the pattern, for all texts.", "anchors": ["src/pymcnp/inp/M_0.py", "src/pymcnp/inp/Fmult.py", "src/pymcnp/inp/pikmt/Photonbias.py", "src/pymcnp/inp/ds_1/Variables.py", "src/pymcnp/inp/_card.py: Card.from_mcnp"]}
{"id": "C26", "title": "Bin lists are not stolen by trailing flags", "statement": "For tally bin cards (E, T, C) with any number of numeric bounds, the bounds attribute holds all of them and the trailing nt/c flags stay unset unless written.", "quantifier": "every number of bounds and every bounds", "why_tests_cant": "The number of bounds is unbounded; a test comparing printed text cannot see the mis-assignment.", "anchors": ["src/pymcnp/inp/E.py", "src/pymcnp/inp/T_0.py", "src/pymcnp/inp/C.py"]}
{"id": "C27", "title": "Lists of cells and surfaces are not re-partitioned", "statement": "For cards with two adjacent integer lists (SSW surfaces/cells, HISTP lhist/cells) reading the printed text returns the same two lists.", "quantifier": "all pairs of lists", "why_tests_cant": "Unbounded lists.", "anchors": ["src/pymcnp/inp/Ssw.py", "src/pymcnp/inp/Histp.py"]}
{"id": "C28", "title": "Transformation cards are classified by their number of entries", "statement": "A TR card with origin and k rotation entries (k in 0,3,5,6,9) and optional system flag is read as the card variant with exactly those entries, and prints back to the same entries.", "quantifier": "all real entries", "why_tests_cant": "All entry values; overlap between 'n entries + flag' and 'n+1 entries'.", "anchors": ["src/pymcnp/inp/Tr_0.py", "src/pymcnp/inp/Tr_1.py", "src/pymcnp/inp/Tr_2.py", "src/pymcnp/inp/Tr_3.py", "src/pymcnp/inp/Tr_4.py", "src/pymcnp/Inp.py: Data union"]}
{"id": "C29", "title": "Keyword case is irrelevant", "statement": "Changing the letter case of a card text does not change whether it is accepted nor the numeric attribute values read.", "quantifier": "every card text and every re-casing", "why_tests_cant": "All texts times all casings.", "anchors": ["src/pymcnp/inp/_card.py: Card.from_mcnp"]}
{"id": "C30", "title": "Setting the history count is idempotent and local", "statement": "After any sequence of operations inp.nps = n makes inp.nps read n, leaves all other cards unchanged and in order, and never creates a second NPS card.", "quantifier": "every input object, every sequence of assignments", "why_tests_cant": "Histories are unbounded.", "anchors": ["src/pymcnp/Inp.py: Inp.nps"]}
{"id": "C31", "title": "Setting the random seed is idempotent and local", "statement": "inp.seed = s (s odd) makes inp.seed read s and leaves all other cards and all other RAND options unchanged; an even s is rejected and leaves the object unchanged.", "quantifier": "every input object and every sequence of assignments, including failing ones", "why_tests_cant": "Histories are unbounded.", "anchors": ["src/pymcnp/Inp.py: Inp.seed", "src/pymcnp/inp/rand/Seed.py"]}
{"id": "C32", "title": "Cells keep material and density consistent", "statement": "In every reachable state of a Cell object a void cell (material 0) has no density and a non-void cell has one.", "quantifier": "every sequence of constructor and setter calls", "why_tests_cant": "Depends on the order of setter calls.", "anchors": ["src/pymcnp/inp/Cell.py: Cell.material, Cell.density"]}
{"id": "C33", "title": "Surface numbers stay in range", "statement": "In every reachable state of a Surface object its number is in 1..99999999, and in 1..999 when a transformation is attached.", "quantifier": "every sequence of constructor and setter calls", "why_tests_cant": "All histories and numbers.", "anchors": ["src/pymcnp/inp/Surface.py: Surface.number, Surface.transform"]}
{"id": "C34", "title": "Automatic numbers are unique", "statement": "Cells (surfaces) created without a number receive a number not used by any other cell (surface) of the session.", "quantifier": "every sequence of automatic and explicit creations", "why_tests_cant": "All creation histories.", "anchors": ["src/pymcnp/inp/Cell.py: Cell.__init__", "src/pymcnp/inp/Surface.py: Surface.__init__"]}
{"id": "C35", "title": "An input file splits back into its own sections", "statement": "Printing an Inp and reading it back yields the same message, title, cell lines, surface lines, data lines and trailing text.", "quantifier": "every file content (any number of cards, any card text without line breaks)", "why_tests_cant": "Unbounded file contents; the section pattern is non-greedy.", "anchors": ["src/pymcnp/Inp.py: Inp._REGEX, Inp.from_mcnp, Inp.to_mcnp"]}
{"id": "C36", "title": "Importances given only as a data card are accepted", "statement": "An input whose cells carry no imp option but whose data section has an IMP card can be constructed.", "quantifier": "every such input", "why_tests_cant": "All combinations of cells and data.", "anchors": ["src/pymcnp/Inp.py: Inp.cells setter"]}
{"id": "C37", "title": "PTRAC history header (I line) round trip", "statement": "For all field values that fit their columns, printing and reading an I line returns the same values (zero values included).", "quantifier": "all field values within width", "why_tests_cant": "All values; zero is a corner case hidden by truthiness.", "anchors": ["src/pymcnp/ptrac/history/I.py"]}
{"id": "C38", "title": "PTRAC event header (J line) round trip", "statement": "Printing and reading a J line of each of the eight layouts returns the same layout and the same values.", "quantifier": "all eight layouts, all values within width", "why_tests_cant": "Layouts with equal column counts are indistinguishable only in general, not on a sample.", "anchors": ["src/pymcnp/ptrac/history/event/J_0.py .. J_7.py", "src/pymcnp/ptrac/history/Event.py"]}
{"id": "C39", "title": "PTRAC coordinates (P line) round trip", "statement": "Printing a P line read from a file reproduces the file text and reading any printed P line returns the same numbers to the printed precision.", "quantifier": "all decimals", "why_tests_cant": "All magnitudes and digit counts.", "anchors": ["src/pymcnp/ptrac/history/event/P_0.py", "src/pymcnp/ptrac/history/event/P_1.py", "src/pymcnp/types/Real.py: Real.__format__"]}
{"id": "C40", "title": "PTRAC header blocks round trip", "statement": "Printing and reading the PTRAC header keyword (V), count (N) and id (L) blocks returns the same lists for lists of every length.", "quantifier": "every list length and content", "why_tests_cant": "Line grouping (10 / 30 per line) gives boundary cases at every multiple.", "anchors": ["src/pymcnp/ptrac/header/V.py", "src/pymcnp/ptrac/header/N.py", "src/pymcnp/ptrac/header/L.py"]}
{"id": "C41", "title": "Particle-track event types are tracked from event to event", "statement": "Filtering or processing a history classifies event k by the type announced by event k-1 (the first by the I line), for histories of any length.", "quantifier": "every history", "why_tests_cant": "Unbounded histories.", "anchors": ["src/pymcnp/PtracFilter.py", "src/pymcnp/PtracProcessor.py"]}
{"id": "C42", "title": "Lazy sequences can be iterated any number of times", "statement": "Iterating a lazily parsed sequence (histories, events, tallies) twice, or interleaved, gives the same elements in the same order.", "quantifier": "every sequence and every interleaving of iterators", "why_tests_cant": "Schedules of next() calls are unbounded.", "anchors": ["src/pymcnp/types/Generator.py: Generator"]}
{"id": "C43", "title": "Mesh tally rows round trip", "statement": "Printing and reading a mesh tally row returns the same fields for every combination of present optional columns the reader can produce.", "quantifier": "all column contents", "why_tests_cant": "All combinations of optional columns.", "anchors": ["src/pymcnp/meshtal/Tally.py"]}
{"id": "C44", "title": "Output file blocks are neither lost nor overwritten", "statement": "Every recognised block of an OUTP file appears in the parsed result, in order, and tabular export keeps one entry per tally.", "quantifier": "every output file", "why_tests_cant": "Unbounded files.", "anchors": ["src/pymcnp/Outp.py: Outp.from_mcnp, Outp.to_dataframe"]}
{"id": "C45", "title": "Batch runs call hooks in a fixed order whatever the process timing", "statement": "Run.run calls prehook_batch, then for each input in order prehook_file and process start, then for each input in order (after that process ended) posthook_file, then posthook_batch; each input is started exactly once, for every completion order of the processes.", "quantifier": "every number of inputs and every schedule of process terminations", "why_tests_cant": "Schedules are not controllable from unit tests.", "anchors": ["src/pymcnp/Run.py: Run.run"]}
{"id": "C46", "title": "Run directories never collide", "statement": "Two runs started under the same path write to different directories, and two inputs of one run write to different files.", "quantifier": "all start times and numbers of inputs", "why_tests_cant": "Depends on the clock.", "anchors": ["src/pymcnp/Run.py: Run.run"]}
{"id": "C47", "title": "Per-tally output files never collide", "statement": "Exporting two different tallies (or runs) from one file writes two different files.", "quantifier": "all pairs of tally identifiers", "why_tests_cant": "All pairs of identifiers.", "anchors": ["src/pymcnp/_cli/_io.py: get_outfile"]}
{"id": "C48", "title": "Variant selection is deterministic and first-match", "statement": "Reading a text with a union of card classes returns the result of the first class in declaration order that accepts it, and fails only when every class rejects it.", "quantifier": "every union and every text", "why_tests_cant": "All texts and unions.", "anchors": ["src/pymcnp/types/Union.py: Union", "src/pymcnp/inp/_option.py: Option.from_mcnp"]}
{"id": "C49", "title": "Lists never contain unset elements", "statement": "A Tuple value, however built, contains no None and is never None.", "quantifier": "every element list and text", "why_tests_cant": "All lists.", "anchors": ["src/pymcnp/types/Tuple.py: Tuple"]}
{"id": "C50", "title": "Event type codes are faithfully mapped", "statement": "Every PTRAC event code is read to an event type that prints the same code, and no other text is accepted.", "quantifier": "every text", "why_tests_cant": "Needs all texts for the rejection half.", "anchors": ["src/pymcnp/ptrac/history/event/j/EventType.py"]}
{"id": "C51", "title": "Substance round trip", "statement": "For every nuclide (z, a in 0..999, optional library suffix) and every decimal fraction, Substance.from_mcnp(Substance(zaid, ratio).to_mcnp()) has the same nuclide and exactly the same fraction.", "quantifier": "all nuclides, all finite decimals", "why_tests_cant": "10^6 nuclides times infinitely many fractions.", "anchors": ["src/pymcnp/types/Substance.py: Substance"]}
{"id": "C52", "title": "Particle designators are kept verbatim", "statement": "Every accepted designator text is stored and printed unchanged, and every comma-separated list of particle symbols is accepted.", "quantifier": "every text; every list of symbols of any length", "why_tests_cant": "Lists are unbounded and the character class contains an accidental range.", "anchors": ["src/pymcnp/types/Designator.py: Designator"]}
{"id": "C53", "title": "Lattice parsing fails only with the documented error", "statement": "Lattice.from_mcnp(text) returns an expression or raises TypesError for every text.", "quantifier": "every text", "why_tests_cant": "Escaping AssertionError/IndexError appear only on texts (some of them valid MCNP, such as a parenthesised group of cells) that the tests do not list.", "anchors": ["src/pymcnp/types/Lattice.py: Lattice.from_mcnp"]}
{"id": "C54", "title": "Separate tally bins stay separate", "statement": "Two lattice expressions given one after the other on a tally card are read as two bins and printed as two bins.", "quantifier": "all pairs of lattice expressions", "why_tests_cant": "The tests give a single bin per card; merging appears only with two or more and needs all pairs.", "anchors": ["src/pymcnp/types/Lattice.py: Lattice.from_mcnp", "src/pymcnp/types/Tuple.py: Tuple.from_mcnp", "src/pymcnp/inp/F_4.py"]}
{"id": "C55", "title": "The vertical data format stands for its columns", "statement": "Inp.from_mcnp reads a file with blocks in the vertical format (a line of card names after #, then rows of entries) like the file in which each block is replaced by one card per name, with the column under that name as its entries.", "quantifier": "all numbers of blocks, names, rows and entries per row, all gaps between entries, all texts before, between and after the blocks", "why_tests_cant": "The rewriting splits, transposes and joins the text with regular expressions; tests have a block or two with a few rows.", "anchors": ["src/pymcnp/Inp.py: Inp._preprocess, Inp.from_mcnp"]}
{"id": "C56", "title": "PTRAC events and histories round trip", "statement": "Printing a history (its I line and any number of events) and reading the text returns the same header and the same events in the same order.", "quantifier": "histories with any number of events, all values within their columns", "why_tests_cant": "The number of events is unbounded and the layouts of equal width are told apart by trial order.", "anchors": ["src/pymcnp/ptrac/History.py: History", "src/pymcnp/ptrac/history/Event.py: Event"]}
{"id": "C57", "title": "Malformed PTRAC text fails with the documented error", "statement": "Reading any text as a PTRAC line, event or history returns a value or raises the library error.", "quantifier": "every text", "why_tests_cant": "Escaping exceptions appear only on texts the tests do not list.", "anchors": ["src/pymcnp/ptrac/history/I.py", "src/pymcnp/ptrac/history/Event.py", "src/pymcnp/ptrac/history/event/j/EventType.py"]}
{"id": "C58", "title": "PTRAC headers and files round trip", "statement": "Printing a PTRAC header or file and reading the text returns the same header texts and blocks and the same histories, events and values, in the same order.", "quantifier": "every header, number of histories and number of events", "why_tests_cant": "The file is read with one pattern for the whole text in which header lines, history lines and event lines can be taken for each other; only an argument over all lines shows that none is.", "anchors": ["src/pymcnp/Ptrac.py: Ptrac.from_mcnp, to_mcnp", "src/pymcnp/ptrac/Header.py: Header.from_mcnp, to_mcnp"]}
{"id": "C59", "title": "Columns of mesh tally rows stay in place", "statement": "A mesh tally row printed with any combination of the columns energy, time, x, y and z reads back with every value in its own column.", "quantifier": "all column contents and all combinations of columns", "why_tests_cant": "Thirty-two combinations of columns whose widths overlap, with all contents.", "anchors": ["src/pymcnp/meshtal/Tally.py"]}
{"id": "C60", "title": "MESHTAL files round trip", "statement": "Printing and reading a MESHTAL file returns the same header and the same rows; every row of the file becomes one row of the object with its own text, and nothing else does.", "quantifier": "all headers and all sequences of rows", "why_tests_cant": "Unbounded files and texts.", "anchors": ["src/pymcnp/Meshtal.py: Meshtal.from_mcnp, Meshtal.to_mcnp", "src/pymcnp/meshtal/Header.py"]}
{"id": "C61", "title": "Blocks of output files round trip", "statement": "A title, activity, fluctuation, summary, mcrun or density block of an OUTP file that can be read is read again from what it prints with the same attributes; blocks all of whose fields are kept are printed unchanged.", "quantifier": "all texts that are read as a block", "why_tests_cant": "Unbounded texts; the pattern and the f-string of every class must agree character by character, with optional and repeated lines.", "anchors": ["src/pymcnp/outp/Mcnp.py", "src/pymcnp/outp/NeutronActivity.py", "src/pymcnp/outp/PhotonActivity.py", "src/pymcnp/outp/AnalysisTallyFluctuation.py", "src/pymcnp/outp/ProblemSummary.py", "src/pymcnp/outp/StartingMcrun.py", "src/pymcnp/outp/UnnormedTallyDensity.py"]}
{"id": "C62", "title": "Tallies of output files round trip", "statement": "A tally of an OUTP file that can be read is read again from what it prints: the same attributes, the same subtallies in the same order, the same lines in each.", "quantifier": "all texts that are read as a tally of one of the six classes", "why_tests_cant": "Unbounded numbers of subtallies and lines; nested repetitions in the pattern.", "anchors": ["src/pymcnp/outp/Tally_1A.py", "src/pymcnp/outp/Tally_1B.py", "src/pymcnp/outp/Tally_2.py", "src/pymcnp/outp/Tally_4.py", "src/pymcnp/outp/Tally_8A.py", "src/pymcnp/outp/Tally_8B.py", "src/pymcnp/outp/tally"]}
{"id": "C63", "title": "Output files round trip", "statement": "An OUTP file that can be read is read again from what it prints: the same header and the same blocks in the same order.", "quantifier": "all texts that are read as an output file", "why_tests_cant": "Unbounded numbers of blocks; the cut between blocks depends on what the blocks print.", "anchors": ["src/pymcnp/Outp.py: Outp.from_mcnp, Outp.to_mcnp", "src/pymcnp/outp/Header.py"]}
{"id": "C64", "title": "A failed save or export leaves existing files as they were", "statement": "Saving an object to a file, or exporting a tally of an output file, either writes exactly what was asked for to the given file and changes no other file, or raises an error and changes no file.", "quantifier": "all objects, tally numbers, paths and contents of the file system", "why_tests_cant": "The failing cases depend on which tallies are in a file and on the moment of the failure between opening and writing.", "anchors": ["src/pymcnp/_file.py: File.to_file", "src/pymcnp/Convert.py: Convert.to_csv, Convert.to_parquet"]}
{"id": "C65", "title": "Fixing an input file keeps the input", "statement": "`pymcnp check --fix` replaces the file by one that reads as the same input, leaves everything as it is when the file cannot be read, touches no other file, and changes nothing when done again.", "quantifier": "all input files and contents of the file system", "why_tests_cant": "Every input file; the fix is in place, so what is lost cannot be recovered.", "anchors": ["src/pymcnp/Check.py: Check.fix", "src/pymcnp/_file.py: File.from_file, File.to_file", "src/pymcnp/Inp.py: Inp.from_mcnp, Inp.to_mcnp"]}
{"id": "C66", "title": "A surface card is read by its entries and round trips", "statement": "The first word of a surface card gives the boundary sign and the number; the next entry is a transformation exactly when a mnemonic with its coefficients follows it; the rest is the equation. Blank space and line breaks between the entries do not matter. A surface printed with `to_mcnp` and read with `from_mcnp` has the same sign, number, transformation and equation.", "quantifier": "all surfaces of the 40 kinds with readable numbers, all ways of spacing", "why_tests_cant": "The optional transformation makes the pattern ambiguous for the matcher, and the printer leaves two blanks where it is unset and breaks long lines; the combinations of mnemonic, optional entries, sign and line length are not enumerable.", "anchors": ["src/pymcnp/inp/Surface.py: Surface.from_mcnp, Surface.to_mcnp", "src/pymcnp/inp/surface/__init__.py: SurfaceOption", "src/pymcnp/inp/_card.py: Card._preprocess, Card._postprocess"]}
{"id": "C67", "title": "Surface numbers are in range", "statement": "Every surface that can be constructed or read has a number from 1 to 99999999 (1 to 999 with a transformation) and a transformation from 0 to 999.", "quantifier": "all numbers and transformations", "why_tests_cant": "The accepted numbers are infinitely many and depend on whether a transformation is set.", "anchors": ["src/pymcnp/inp/Surface.py: Surface.number, Surface.transform"]}
{"id": "C68", "title": "Options of a card are read one by one", "statement": "A card that ends in a list of options (source definition, mesh tallies, particle track files, perturbations, ...) is read as it is written: the entries before the first keyword belong to the card, every option gets exactly the entries from its keyword to the next keyword, in order, and nothing is lost. Blank space and line breaks do not matter. A card built from such options is read back from its printed text unchanged.", "quantifier": "all 21 cards with option lists, all lists of options, all ways of spacing", "why_tests_cant": "The options are found by searching the text for any of up to 70 alternatives in an order that depends on the lengths of class names; how an option is read depends on what follows it, so cases cannot be enumerated.", "anchors": ["src/pymcnp/types/Tuple.py: Tuple.from_mcnp", "src/pymcnp/_symbol.py: Symbol", "src/pymcnp/inp/_option.py: Option.from_mcnp", "src/pymcnp/inp/sdef/__init__.py: SdefOption", "src/pymcnp/inp/fmesh/__init__.py: FmeshOption"]}
{"id": "C69", "title": "Cell cards are read as written and round trip", "statement": "A cell card is read entry by entry: number, material, density (exactly when the material is not 0), the geometry up to the first keyword, then the options one by one with all their entries. Blank space and line breaks do not matter. A cell built from these parts is read back from its printed text unchanged, and no cell exists with a number outside 1 to 99999999, a material outside 0 to 99999999, a density on a void, or a material without density.", "quantifier": "all cell cards: all numbers, materials, densities, geometries and lists of options, all ways of spacing", "why_tests_cant": "The pattern decides with a look-behind whether there is a density, takes the geometry as everything up to a letter, and backtracks over 29 kinds of options; tests show this for a few cards only.", "anchors": ["src/pymcnp/inp/Cell.py: Cell", "src/pymcnp/inp/_card.py: Card.from_mcnp", "src/pymcnp/inp/cell/__init__.py: CellOption", "src/pymcnp/types/Geometry.py: Geometry.from_mcnp", "src/pymcnp/types/Tuple.py: Tuple.from_mcnp"]}
{"id": "C70", "title": "Data cards are told apart by their keywords", "statement": "No text is a data card of two classes with different keywords. A line of the data block is therefore read with the classes of its own keyword only, whatever the order of the 152 classes tried; the first class of a keyword reads every card it accepts, and a class that is alone with its keyword alone decides about its cards, including the exception raised. A card built from readable entries is read back by the union of all data cards as the same card.", "quantifier": "all texts and all pairs of the 152 classes of the data block", "why_tests_cant": "Keywords are beginnings of other keywords (c, cf, cm; f, fc, fcl; t, tf, tm, tmp; sd, sdef), cards may have a star, a number and a particle, and the classes are simply tried one after the other; tests try a few cards with the class they belong to.", "anchors": ["src/pymcnp/Inp.py: Data", "src/pymcnp/types/Union.py: Union.from_mcnp", "src/pymcnp/inp/_card.py: Card.from_mcnp"]}
{"id": "C71", "title": "A whole input file survives printing and reading", "statement": "Reading the printed text of an input file gives the same file: Inp.from_mcnp(str(inp)) has the same title, cells, surfaces, data cards and trailing text, for every file built from readable parts with a one-line title, at least one card per block and a cell that gives its importance.", "quantifier": "all titles made of words, all lists of cells, surfaces and data cards made of readable parts, all trailing texts made of words", "why_tests_cant": "The text goes through line joining, wrapping at 80 columns, shorthand for repeated entries, the cutting of the file into blocks and lines, unions of 3, 2 and 152 classes and the check of the importances; a test fixes one file.", "anchors": ["src/pymcnp/Inp.py: Inp.from_mcnp, Inp.to_mcnp, Inp._preprocess, Inp.cells", "src/pymcnp/inp/_card.py: Card.from_mcnp, Card.to_mcnp", "src/pymcnp/inp/Cell.py", "src/pymcnp/inp/Surface.py"]}
{"id": "C72", "title": "`like` cards are read entry by entry and survive printing", "statement": "Like.from_mcnp reads `n like m but ...` as cell number n, base cell m and the options one after the other, in upper or lower case and whatever blanks and line breaks separate the entries; numbers outside 1..99999999 are refused; a card built from such parts is read back unchanged from str(card).", "quantifier": "all numbers, all option lists whose options are found by their own classes, all blank space and line breaks between the entries", "why_tests_cant": "31 option classes can follow each other in any number and order behind a lazy group; a test picks a few sequences.", "anchors": ["src/pymcnp/inp/Like.py: Like.from_mcnp, Like.to_mcnp, Like.number, Like.cell", "src/pymcnp/inp/like/__init__.py: LikeOption", "src/pymcnp/inp/_card.py: Card.from_mcnp"]}
{"id": "C73", "title": "Comment cards are comments in every block and survive printing", "statement": "A card whose first word is `c` or `C` is read as a comment with the words that follow, in the cell, surface and data blocks alike, whatever the words are; a comment built from words is read back unchanged from its printed text.", "quantifier": "all lists of words after the `c`, all three blocks, all blank space and line breaks", "why_tests_cant": "Each of the 152 classes of the data block and the cell, like and surface patterns could claim some comment text (`c 1 0 -1`); tests try a handful of comments.", "anchors": ["src/pymcnp/inp/Comment.py: Comment.from_mcnp, Comment.to_mcnp", "src/pymcnp/Inp.py: Cell, Surface, Data unions", "src/pymcnp/types/Union.py: Union.from_mcnp"]}
{"id": "C74", "title": "Equality of cards and files means equal contents", "statement": "Two cards of a block made of readable parts satisfy a == b exactly when they are of the same class and agree in every attribute, and two input files exactly when they have the same title, the same cards in the same order and the same trailing text.", "quantifier": "all pairs of cards of the same block and all pairs of files made of readable parts", "why_tests_cant": "Equality compares the printed texts: two different cards with the same text would be equal, and no sample of pairs shows that there are none among 679 classes.", "anchors": ["src/pymcnp/_symbol.py: Nonterminal.__eq__", "src/pymcnp/Inp.py: Inp.to_mcnp", "src/pymcnp/inp/_card.py: Card"]}
{"id": "C75", "title": "Numbers compare and calculate as numbers", "statement": "<, <=, ==, !=, >, >= between Integer objects, Real objects and the numbers of Python decide as the numbers do, on either side; +, -, *, //, % on Integer objects give the results of whole numbers, with the quotient rounded down and an error only for division by zero.", "quantifier": "all pairs of operands, all operators, both sides", "why_tests_cant": "Twelve comparison methods with reflected variants and three operand types each; decimals with any exponent.", "anchors": ["src/pymcnp/types/Integer.py: Integer.__lt__ ... Integer.__ge__, Integer.__add__ ... Integer.__rmod__", "src/pymcnp/types/Real.py: Real.__lt__ ... Real.__ge__"]}
{"id": "C76", "title": "Error texts tell the kind of the error and quote at most four lines", "statement": "str(error) succeeds for every error the library raises, about any text. Its first line tells the class and the code of the error, and no two kinds share a first line. The other lines quote the offending text after '> ': all of it up to four lines, else the first four and dots.", "quantifier": "all error classes, all codes that are raised, all offending texts", "why_tests_cant": "The texts have any number of lines and any contents; the code is one conditional expression over a sum, repeated in six classes.", "anchors": ["src/pymcnp/errors/InpError.py: InpError.__str__", "src/pymcnp/errors/TypesError.py: TypesError.__str__", "src/pymcnp/errors/CliError.py: CliError.__str__", "src/pymcnp/errors/OutpError.py: OutpError.__str__", "src/pymcnp/errors/PtracError.py: PtracError.__str__", "src/pymcnp/errors/MeshtalError.py: MeshtalError.__str__"]}
{"id": "C77", "title": "The exit status of a command tells whether it did its work", "statement": "`pymcnp check` ends with 0 exactly when the input file is there and can be read, and changes no file; with --fix it then rewrites that file only. `pymcnp run` starts a batch exactly when all its input files can be read and the command is found, with the inputs in the order given, and otherwise ends with another status than 0. `pymcnp convert` ends with 0 exactly when the table of the tally was written, to one file.", "quantifier": "all files, all contents, all paths, tally numbers and lists of inputs", "why_tests_cant": "Scripts rely on the status; exceptions of eighteen kinds come out of the readers, of which each command catches some, and a caught error may fall through to a successful end.", "anchors": ["src/pymcnp/_cli/check.py: main", "src/pymcnp/_cli/run.py: main", "src/pymcnp/_cli/convert.py: main", "src/pymcnp/Check.py: Check.check, Check.fix", "src/pymcnp/Run.py: Run.__init__", "src/pymcnp/Convert.py: Convert.to_csv"]}
{"id": "C78", "title": "A cell is drawn where its geometry puts it", "statement": "Visualize.to_show_cells draws every cell that is not skipped, and the points it fills are exactly those with the senses the geometry of the cell (or of the cell it is like) names, where the sense of a point with respect to a surface is that of the MCNP manual, after the transformations of the surface and of the cell.", "quantifier": "all surfaces and their entries, all geometries, all lists of cells, all points of space", "why_tests_cant": "Whether a point is on the right side has to hold for every point and all real entries; the tests only check that a drawing is made.", "anchors": ["src/pymcnp/Visualize.py: Visualize.to_show_cells", "src/pymcnp/inp/Cell.py: Cell.to_show", "src/pymcnp/inp/Surface.py: Surface.to_show", "src/pymcnp/types/Geometry.py: to_show", "src/pymcnp/inp/surface/*.py: to_show", "src/pymcnp/_show/pyvista/*.py: cell"]}
{"id": "C79", "title": "A surface is drawn where it is", "statement": "The points that to_show of a surface draws are points of that surface by its equation in the MCNP manual, and all of them (within 50 along the axis for cylinders without ends and within a radius of 100 for cones).", "quantifier": "all surfaces and their entries, all points of space", "why_tests_cant": "An equality of sets of points for all real entries, through rotations by angles computed from the entries; the tests only check that a drawing is made.", "anchors": ["src/pymcnp/inp/surface/*.py: to_show", "src/pymcnp/_show/pyvista/_shape.py: PyvistaShape.rotate, PyvistaShape.translate", "src/pymcnp/_show/pyvista/*.py: surface"]}
{"id": "C80", "title": "A material made from formulas has the fractions of its nuclides", "statement": "M_0.from_formula gives a material with an entry for every natural isotope of every element of the formulas whose fraction in the mixture is above the cutoff. The entry is the fraction of the nuclide by weight, with a minus sign, or by number of atoms, as asked. No element is left out silently.", "quantifier": "all mixtures of compounds, all compositions, all cutoffs, both modes, the whole table of elements", "why_tests_cant": "Fractions enter transport calculations as they are; tests compare a few printed materials, while the claim is an identity of sums over arbitrary compositions and the table of 120 elements.", "anchors": ["src/pymcnp/inp/M_0.py: M_0.from_formula", "src/pymcnp/_elements.py: ELEMENTS"]}
{"id": "C81", "title": "Cells are sampled all over the drawing", "statement": "The grid of points on which Visualize draws cells reaches over everything drawn: every point within the bounds of the surfaces has a sample no further away than 1/256 of the extent, along each axis.", "quantifier": "all bounds, all points", "why_tests_cant": "A covering of a box by a grid for all real bounds; the tests draw files and look at nothing.", "anchors": ["src/pymcnp/Visualize.py: Visualize._grid", "src/pymcnp/_show/pyvista/_shape.py: RESOLUTION"]}
{"id": "C82", "title": "Drawing a selection draws what was selected", "statement": "Visualize.to_show_cells and to_show_surfaces with numbers to skip draw everything else, to_show_cell and to_show_surface draw what is listed, each item as in the drawing of the whole input. pymcnp visualize draws, or with --pdf writes, what its options ask for.", "quantifier": "all inputs that can be drawn, all selections, all combinations of options", "why_tests_cant": "Which cells depend on each other is a property of the input, and combinations of options multiply; the tests draw one cell and one surface and look at nothing.", "anchors": ["src/pymcnp/Visualize.py: Visualize.to_show_cells, to_show_cell, to_show_surfaces, to_show_surface", "src/pymcnp/_cli/visualize.py: main"]}
{"id": "C83", "title": "The figures of a tally show every line once, under its place", "statement": "Plot.to_show gives one figure for each place of a tally (cell, surface, or surface and angles). The title names the place and the figure shows the lines of the tally there, in order; no line is lost or shown twice. A number that is not that of a tally raises CliError.", "quantifier": "all output files, all tallies, any number of subtallies and lines", "why_tests_cant": "A partition of arbitrarily many rows; the tests open figures and look at nothing.", "anchors": ["src/pymcnp/Plot.py: Plot.to_show", "src/pymcnp/Outp.py: Outp.to_dataframe"]}
{"id": "C84", "title": "Filters and processors of mesh tally files see every tally once and in order", "statement": "A MeshtalFilter yields the accepted tallies in order, looks at each tally once and at none before it is needed, and passes exceptions of its check on. A MeshtalProcessor calls its hook before, its method once for each tally in order, and its hook after, and stops at the first exception.", "quantifier": "all files, all checks and methods of derived classes (with state, raising or not), any number of elements asked for", "why_tests_cant": "The methods are the user's and may depend on what they have seen; the claim is about every prefix of every sequence of calls.", "anchors": ["src/pymcnp/MeshtalFilter.py: MeshtalFilter.__call__", "src/pymcnp/MeshtalProcessor.py: MeshtalProcessor.__call__"]}
{"id": "C85", "title": "Malformed OUTP and MESHTAL text fails with the documented error", "statement": "Reading any text with Outp.from_mcnp or a block class of OUTP files, or with Meshtal.from_mcnp, its header or its rows, returns a value or raises a library error (OutpError, MeshtalError, TypesError).", "quantifier": "every text", "why_tests_cant": "Escaping exceptions appear only on texts the tests do not list; the absence of others is a statement about all texts.", "anchors": ["src/pymcnp/Outp.py: Outp.from_mcnp", "src/pymcnp/outp: Block.from_mcnp of every class", "src/pymcnp/Meshtal.py: Meshtal.from_mcnp", "src/pymcnp/meshtal/Header.py: Header.from_mcnp", "src/pymcnp/meshtal/Tally.py: Tally.from_mcnp"]}
{"id": "C86", "title": "Reading input text fails only with the documented errors", "statement": "Reading a cell, surface or data card, or a whole input file, from any text either succeeds or raises the library's own InpError or TypesError, so a caller that catches them needs no other handler. Where another exception escapes, it is due to a shorthand (j, 2r, ...) where a number is tested, to an endless number (inf, nan) where an integer is read, to a plane through three points whose coordinates cannot be subtracted, or to one of the three cards whose entries are free text; and a file raises no other exception than one of its lines does.", "quantifier": "every text, every class of card of the three unions", "why_tests_cant": "the readers try 152 patterns with nested options; a test only shows that chosen malformed texts raise the right class of error, while an escaping exception needs one text nobody thought of", "anchors": ["src/pymcnp/inp/_card.py: Card.from_mcnp", "src/pymcnp/inp/_option.py: Option.from_mcnp", "src/pymcnp/types/Union.py: Union.from_mcnp", "src/pymcnp/Inp.py: Inp.from_mcnp, Cell, Surface, Data"]}
{"id": "C87", "title": "A plane through three points needs three points that are not on a line", "statement": "Making a plane through three points, or changing one of its coordinates, raises InpError exactly when the three points would be on a line; otherwise it succeeds and stores the coordinates.", "quantifier": "all coordinates; every coordinate changed", "why_tests_cant": "the test is a floating-point cross product; whether it agrees with geometry for all points is a statement about rounding that samples cannot settle", "anchors": ["src/pymcnp/inp/surface/P_1.py: P_1.x1 ... P_1.z3 (setters)", "src/pymcnp/types/Real.py: Real.__sub__"]}
{"id": "C88", "title": "Assigning attributes one by one is as strict as constructing", "statement": "Assigning a value to an attribute of a card, option or entry is accepted exactly when an object with the resulting contents could be constructed directly, and raises the same exception otherwise. So after any sequence of assignments, refused ones included, the object can be constructed anew from what its attributes hold.", "quantifier": "all classes of cards, options and entries; all valid contents; all attributes and values; all sequences of assignments", "why_tests_cant": "which combinations of attributes are consistent depends on every other attribute at the time of the assignment; a test fixes one order and one set of values", "anchors": ["src/pymcnp/inp/*.py: setters", "src/pymcnp/inp/Cell.py: Cell.material, Cell.density", "src/pymcnp/inp/Surface.py: Surface.number, Surface.transform", "src/pymcnp/inp/Kcode.py: Kcode.nsrck, Kcode.msrk", "src/pymcnp/inp/ssr/Bcw.py: Bcw.zb, Bcw.ze", "src/pymcnp/inp/surface/P_1.py: P_1"]}
{"id": "C89", "title": "Regions composed from surface objects are the regions meant", "statement": "A geometry composed in Python from surface objects with -, +, ~, & (unites) and | (intersects) is, when printed and read by MCNP, the region the operators describe in terms of the sides of the surfaces; an expression either has a value or raises AttributeError because a surface is combined with a geometry directly.", "quantifier": "all expressions of any depth over surfaces with positive numbers; all positions of a point with respect to the surfaces", "why_tests_cant": "the expressions are unbounded and whether the printed text keeps its meaning depends on precedence at every level", "anchors": ["src/pymcnp/inp/Surface.py: Surface.__and__, __or__, __neg__, __pos__, __invert__", "src/pymcnp/types/Geometry.py: Geometry.__and__, __or__, __neg__, __pos__, __invert__, Geometry.from_mcnp, Geometry.to_mcnp"]}
{"id": "C90", "title": "Sums, differences and products of reals are those of the numbers", "statement": "Adding, subtracting or multiplying a real value of a card with another, or with an int, a float or a decimal on either side, gives the decimal nearest to the exact result with 28 digits (the exact result if it has no more digits), whether the value was read from a text or assigned from a Python number.", "quantifier": "all finite numbers of ordinary size; both orders of the operands; values read and values assigned", "why_tests_cant": "the operators dispatch on the types of both operands and on what kind of number the object holds; rounding has to hold for all numbers", "anchors": ["src/pymcnp/types/Real.py: Real.__add__, __radd__, __sub__, __rsub__, __mul__, __rmul__, Real.__init__"]}
{"id": "C91", "title": "What was assigned is what is held", "statement": "After assigning a number to a real attribute, the attribute is equal to that number and to the value read back from the printed text; its other comparisons with numbers are those of the number.", "quantifier": "all whole numbers and all finite floats", "why_tests_cant": "whether the binary value of a float and its shortest decimal text are the same number differs from float to float", "anchors": ["src/pymcnp/types/Real.py: Real.__init__, Real.__eq__, Real.__lt__, Real.__gt__, Real.to_mcnp, Real.from_mcnp", "src/pymcnp/inp/Cell.py: Cell.density"]}
{"id": "C92", "title": "Materials, tallies, sources and dose functions keep what they say", "statement": "A material, a tally of cells or surfaces, its segments and special bins, the volumes of cells, a dose function, a source distribution, a criticality source, a detector diagnostic or a table of weights that was built or read is printed as a text that is read back as the same card: the same numbers, nuclides, fractions, points, keywords and totals in the same places.", "quantifier": "all card numbers, all lists of any length, with and without keywords and totals; texts with any spacing and continuation lines for tallies", "why_tests_cant": "which field an entry goes to depends on all entries after it, because the patterns try every division of the list; tests fix one list", "anchors": ["src/pymcnp/inp/M_0.py: M_0", "src/pymcnp/inp/F_0.py: F_0", "src/pymcnp/inp/F_3.py: F_3", "src/pymcnp/inp/Fs.py: Fs", "src/pymcnp/inp/De.py: De", "src/pymcnp/inp/Df_0.py: Df_0", "src/pymcnp/inp/Ds_0.py: Ds_0", "src/pymcnp/inp/Sb_0.py: Sb_0", "src/pymcnp/inp/Sp_0.py: Sp_0", "src/pymcnp/inp/Si_0.py: Si_0", "src/pymcnp/inp/Si_1.py: Si_1", "src/pymcnp/inp/Si_2.py: Si_2", "src/pymcnp/inp/Ksrc.py: Ksrc", "src/pymcnp/inp/Dd.py: Dd", "src/pymcnp/inp/Uran.py: Uran", "src/pymcnp/inp/Xs.py: Xs", "src/pymcnp/inp/Awtab.py: Awtab", "src/pymcnp/inp/f_1/Sphere.py: Sphere", "src/pymcnp/inp/pikmt/Photonbias.py: Photonbias", "src/pymcnp/inp/ds_2/Variables.py: Variables", "src/pymcnp/inp/Vol.py: Vol", "src/pymcnp/inp/Fu.py: Fu"]}
{"id": "C93", "title": "Quotients and remainders of reals are those of the numbers", "statement": "Dividing a real value of a card by another, or by an int, a float or a decimal on either side: `/` gives the quotient, exact if it has at most 28 digits and otherwise the nearest decimal of 28 digits; `//` and `%` give a whole quotient and the remainder that belongs to it; dividing by zero, and whole quotients of more than 28 digits, raise ArithmeticError. The same numbers divide in the same way whether the card holds them as reals or as integers, and whether they were read or assigned.", "quantifier": "all finite numbers of ordinary size; both orders of the operands; values read and values assigned; all pairs of whole numbers", "why_tests_cant": "the operators dispatch on the types of both operands and on what kind of number the object holds; the quotient is rounded twice, which is only sound because of the sticky digit; the differing rules for negative numbers show only for some signs", "anchors": ["src/pymcnp/types/Real.py: Real.__mod__, __rmod__, __divmod__, __rdivmod__, __floordiv__, __rfloordiv__, __truediv__, __rtruediv__", "src/pymcnp/types/Integer.py: Integer.__floordiv__, __mod__"]}
{"id": "C94", "title": "Values that are equal have equal hashes", "statement": "If Python says that an integer or real value of a card equals another one, or a number on either side, then both can be hashed and have the same hash; so looking a value up in a set or a dictionary finds exactly what comparing with every element finds.", "quantifier": "all Integer and Real objects, whether read or assigned; all ints, decimals and floats; infinities; shorthand", "why_tests_cant": "equality and hashing are defined in different places and for every kind of number held; equality replaces a float by its text, hashing does not; the hashes of different kinds of numbers agree only by arithmetic modulo a prime", "anchors": ["src/pymcnp/types/Integer.py: Integer.__hash__, Integer.__eq__", "src/pymcnp/types/Real.py: Real.__hash__, Real.__eq__", "src/pymcnp/_symbol.py: Nonterminal.__eq__"]}
{"id": "C95", "title": "The text of comments, multipliers and treatments of tallies survives", "statement": "Reading a tally comment (FC), tally multiplier (FM) or tally treatment (FT) yields the sign and number of its first word and the text that follows; printing the card and reading the printed text, on its own or among all data cards, yields an equal card.", "quantifier": "all FC, FM and FT cards, all texts, all numbers and signs, all spacings and continuation lines", "why_tests_cant": "these cards accept any text, so examples cannot cover them; the text passes through the removal of comments, equals signs and line breaks, the expansion of shorthand and the wrapping of long lines, each of which is a rule over all words", "anchors": ["src/pymcnp/inp/Fc.py: Fc", "src/pymcnp/inp/Fm.py: Fm", "src/pymcnp/inp/Ft.py: Ft", "src/pymcnp/inp/_card.py: Card.from_mcnp, Card.to_mcnp"]}
{"id": "C96", "title": "Converting numbers of cards rounds as promised", "statement": "int, math.trunc, math.floor, math.ceil and round of an entry of a card give the whole number below, above, towards zero or nearest (of two the even one); float gives the nearest float (of two the one whose last binary digit is zero); bool is false for zero only; -x, +x and abs(x) give the number with its sign changed, and infinity, NaN and shorthand are refused with one kind of error each.", "quantifier": "all whole numbers, all decimals of any number of digits and any exponent, all floats, all shorthand, and all these operations", "why_tests_cant": "rounding differs only at ties, at powers of two, near the largest float and for negative numbers; there are infinitely many such points and samples seldom hit one", "anchors": ["src/pymcnp/types/Real.py: Real.__int__, __float__, __bool__, __trunc__, __floor__, __ceil__, __round__, __neg__, __pos__, __abs__", "src/pymcnp/types/Integer.py: Integer.__int__, __float__, __bool__, __trunc__, __floor__, __ceil__, __round__, __neg__, __pos__, __abs__"]}
{"id": "C97", "title": "Transformations inside cell options keep their entries", "statement": "A cell option trcl with entries, in parentheses or not, with or without a star, is read, among all options of a cell or of a cell made like another, as the variant with as many entries; its transformation holds exactly the numbers written and the system 1 or -1 if one follows. Every other text is read as the number of a transformation or refused. An option that holds a transformation of finite numbers prints as a text that is read as the same option.", "quantifier": "all five forms of transformations, both kinds of cells, all finite decimals as entries, all texts and all ways to separate entries", "why_tests_cant": "texts with eight, nine and ten pieces overlap between the forms, parentheses and the missing system shift the pieces, and twenty other options compete for the same text; no sample covers all numbers and layouts", "anchors": ["src/pymcnp/types/Transformation.py: Transformation_0 to Transformation_4, from_mcnp, to_mcnp", "src/pymcnp/inp/cell/Trcl_1.py to Trcl_5.py", "src/pymcnp/inp/like/Trcl_1.py to Trcl_5.py", "src/pymcnp/inp/_option.py: Option.from_mcnp, to_mcnp"]}
{"id": "C98", "title": "Attributes of cells and surfaces hold what was last assigned", "statement": "After any sequence of assignments to the attributes of a Cell or Surface object, each of its attributes is the last value that was accepted, or that of the constructor: whole numbers and texts of whole numbers within their bounds, densities as given, geometries and options as given or as their texts are read. An assignment that is refused raises an exception and changes nothing, and an accepted one changes no other attribute. The number of a cell is always from 1 to 99999999, that of its material from 0 to 99999999.", "quantifier": "all histories of assignments with arguments of every kind, all texts", "why_tests_cant": "an attribute may be wrong only after a particular sequence of accepted and refused assignments, and arguments may be numbers, texts, floats, objects or None in any mixture", "anchors": ["src/pymcnp/inp/Cell.py: Cell.__init__, number, material, density, geometry, options", "src/pymcnp/inp/Surface.py: Surface.__init__, number, transform, option, prefix"]}
{"id": "C99", "title": "Texts and tuples behave as the containers they look like", "statement": "A text of a card compares alphabetically by code points with other texts, joins with texts, is repeated by whole numbers, and is indexed and searched like the characters it holds; a tuple of a card is indexed like a list, and 'x in tuple' says whether one of its entries denotes the number x. This holds on either side of the operator and for the objects of the library as for Python's own texts and numbers.", "quantifier": "all texts, all positions and counts, all tuples of whole numbers, shorthand and decimals, all six comparisons", "why_tests_cant": "order and search are statements about all pairs of texts, the method called depends on the kinds of both operands, and negative positions, empty texts and different ways to write a number are easily missed", "anchors": ["src/pymcnp/types/String.py: String.__lt__, __le__, __eq__, __ne__, __gt__, __ge__, __add__, __mul__, __rmul__, __getitem__, __contains__, __len__", "src/pymcnp/types/Tuple.py: Tuple.__getitem__, __contains__", "src/pymcnp/types/Integer.py: Integer.__mul__"]}
{"id": "C100", "title": "A cell filled with a universe keeps the universe and where it is put", "statement": "Reading a cell card, or a cell card made like another, whose options contain 'fill' with the number of a universe gives a cell whose option at that place holds exactly this universe, the star if there is one, and the transformation written after it, if any; printing such an option and reading it among the options of a cell gives the same option.", "quantifier": "all universes, all transformations in all forms (twelve, nine, eight, six or three entries with or without a system, or a number), with and without parentheses and star, lattices, whatever options stand before and after", "why_tests_cant": "the option is found by seven classes whose patterns are tried in one order in the card and in another for the option, an optional tail of a pattern is given up silently, and the options that follow decide where a list of entries ends", "anchors": ["src/pymcnp/inp/cell/Fill_0.py: Fill_0", "src/pymcnp/inp/cell/Fill_1.py: Fill_1", "src/pymcnp/inp/cell/Fill_6.py: Fill_6", "src/pymcnp/inp/like/Fill_1.py: Fill_1", "src/pymcnp/inp/_symbol.py: from_mcnp", "src/pymcnp/types/Transformation_0.py: Transformation_0.from_mcnp", "src/pymcnp/inp/Cell.py: Cell.from_mcnp"]}
{"id": "C101", "title": "A variable of a source that depends on another variable keeps it and its distribution", "statement": "Reading a source definition in which a variable is given as a distribution that depends on another variable (erg=fpos=d2) gives a source whose option at that place holds the variable it depends on and the number of the distribution; a time drawn from embedded distributions (tme=d1<d2) holds all of them in order; printing such a source and reading it again gives the same source.", "quantifier": "all lists of variables of a source, each given by entries, by dependence on any of 24 variables, or (time) by any number of embedded distributions, in any order and with any blank space, equal signs and line breaks between entries", "why_tests_cant": "59 classes compete for the variables in two different orders, each dependent variable contains a second competition of 24 classes, and where one variable ends depends on the words that follow it", "anchors": ["src/pymcnp/inp/Sdef.py: Sdef", "src/pymcnp/inp/sdef/Erg_2.py: Erg_2", "src/pymcnp/inp/sdef/Tme_1.py: Tme_1", "src/pymcnp/inp/sdef/tme_1/Embedded.py: Embedded.from_mcnp", "src/pymcnp/inp/sdef/f/Fpos.py: Fpos", "src/pymcnp/inp/_symbol.py: from_mcnp", "src/pymcnp/types/Tuple.py: Tuple.from_mcnp"]}
{"id": "C102", "title": "Attributes accept exactly the numbers and words in their documented ranges", "statement": "Assigning a number, a word or None to an attribute of a card, option or entry succeeds exactly when the value is in the range written at the setter (between two limits with or without the ends, one of certain integers, a remainder of the last digit, one of certain words in any case, left out or not, a jump or not); otherwise InpError is raised and nothing changes. No object that was constructed or read holds a value outside. The limits of plots and cylinders, temperatures and histories kept are tested against the other values they belong to.", "quantifier": "all attributes of all 679 classes, all rational numbers in every spelling and both infinities, all texts, all objects", "why_tests_cant": "the ranges are some 400 hand-written conditions in as many files, and the numbers near an end of a range are infinitely many", "anchors": ["src/pymcnp/inp/cell/Dxc.py: Dxc.probability", "src/pymcnp/inp/Phys_0.py: Phys_0.iunr", "src/pymcnp/inp/F_0.py: F_0.suffix", "src/pymcnp/inp/mplot/Xlims.py: Xlims.upper", "src/pymcnp/inp/ssr/Bcw.py: Bcw.ze", "src/pymcnp/inp/cell/Tmp.py: Tmp.temperature", "src/pymcnp/inp/Kcode.py: Kcode.msrk", "src/pymcnp/types/Real.py: Real.__lt__", "src/pymcnp/types/Integer.py: Integer.__mod__"]}
{"id": "C103", "title": "The numbers of tallies reach their tables", "statement": "When tables are made from an output file, each table belongs to a tally of its number and has one row for each line, in order, with the numbers that are written in that line as bin, count and error. A text is a number exactly when it is written as digits with an optional sign, point and exponent, and its value is then the one written. A text that is no number makes every table, export and plot of the file raise ValueError, and no file is touched.", "quantifier": "all output files, all tallies, all texts, all spellings of numbers", "why_tests_cant": "spellings of numbers are infinitely many; example files have no numbers with three-digit exponents", "anchors": ["src/pymcnp/outp/tally/subtally/Line.py: Line.to_dataframe", "src/pymcnp/Outp.py: Outp.to_dataframe", "src/pymcnp/Plot.py: Plot.to_show", "src/pymcnp/Convert.py: Convert.to_csv"]}
{"id": "C104", "title": "Electron physics cards keep their entries", "statement": "The entries of an electron physics card (phys:e) go to its attributes in order: up to eleven entries to the first eleven; after eleven entries the two words j j (in any case) go to the attribute that stands for them, and up to three more to the last attributes; without j j the twelfth entry is already the next attribute. No entry is lost or reordered and more than sixteen are refused. A card without gaps that is printed is read back with the same attributes.", "quantifier": "all texts of the card, all spacings and line breaks, all attribute values", "why_tests_cant": "fifteen optional entries, one of which is two words, can be given and read in many ways", "anchors": ["src/pymcnp/inp/Phys_2.py:Phys_2._REGEX", "src/pymcnp/inp/Phys_2.py:Phys_2.__init__", "src/pymcnp/inp/_card.py:Card.from_mcnp", "src/pymcnp/inp/_card.py:Card.to_mcnp"]}
{"id": "C105", "title": "Point and ring detectors are read and printed correctly", "statement": "The numbers of a card of point detectors (f5, f15, ...) are read four by four and those of ring detectors three by three, in the order of the text; the prefix, the number of the card, the axis, the designator and the request for no direct contributions keep their places. A card whose first word or number of entries is not that of such a card is refused. Coordinates and radii are the numbers written, and a printed card is read back as it was.", "quantifier": "all texts of the cards, all spacings and line breaks, any number of detectors, all attribute values", "why_tests_cant": "the number of detectors is unbounded and a lazy repetition decides where the last one ends", "anchors": ["src/pymcnp/inp/F_1.py:F_1._REGEX", "src/pymcnp/inp/F_2.py:F_2._REGEX", "src/pymcnp/inp/F_2.py:F_2.to_mcnp", "src/pymcnp/inp/f_1/Sphere.py:Sphere", "src/pymcnp/inp/f_2/Ring.py:Ring", "src/pymcnp/inp/_card.py:Card.from_mcnp"]}
{"id": "C106", "title": "The fill option of a lattice is read and printed correctly", "statement": "The fill option of a lattice, read on its own, holds the star of its keyword, its three ranges, all its universes in the order of the text, and its origin, whatever blank space and line breaks separate the entries; a range or universe that is none is refused with the error of that entry. A printed lattice is read back as it was.", "quantifier": "all texts of the option, all spacings and line breaks, all ranges, any number of universes, both kinds of cells", "why_tests_cant": "the number of universes is unbounded and seven fill classes compete for the same text", "anchors": ["src/pymcnp/inp/cell/Fill_0.py:Fill_0", "src/pymcnp/inp/like/Fill_0.py:Fill_0", "src/pymcnp/inp/_option.py:Option.from_mcnp", "src/pymcnp/inp/_card.py:Card.from_mcnp"]}
{"id": "C107", "title": "Filters of particle track files keep their bounds and variables", "statement": "Reading the filter option of a PTRAC card gives, for every entry of the text and in the order of the text, the lower bound, the name of the variable and the upper bound that are written, whatever blank space and line breaks separate the entries; entries with a single value (filter=2,icl) are read with this value. An option built from such entries is printed as a text that is read as the same option.", "quantifier": "all numbers of entries, all bounds, all names of variables, all spacings and line breaks", "why_tests_cant": "bounds, names and the number of entries are unbounded", "anchors": ["src/pymcnp/inp/ptrac/Filter.py:Filter", "src/pymcnp/inp/ptrac/filter/Entry.py:Entry", "src/pymcnp/inp/_option.py:Option.from_mcnp", "src/pymcnp/inp/_entry.py:Entry.from_mcnp"]}
{"id": "C108", "title": "Cards that create files keep every file", "statement": "Reading a files card gives, in the order of the text, every file that is written with its unit, name, access, form and length; access, form and length may be left out at the end of a file. No word of the card is ignored. A card built from any list of files is printed as a text that is read as the same card.", "quantifier": "all numbers of files, all units, names and lengths, every choice of values left out, all spacings and line breaks", "why_tests_cant": "units, names and the number of files are unbounded", "anchors": ["src/pymcnp/inp/Files.py:Files", "src/pymcnp/inp/files/File.py:File", "src/pymcnp/inp/_card.py:Card.from_mcnp", "src/pymcnp/types/Tuple.py:Tuple.from_mcnp"]}
{"id": "C109", "title": "Cards of DXTRAN spheres keep every sphere", "statement": "Reading a dxt card with any number of spheres from one to ten, with or without the weight cutoffs and the minimum weight at its end, gives every sphere with the centre and the radii that are written. A card built from spheres and cutoffs is printed as a text that is read as the same card.", "quantifier": "all particles, all numbers of spheres, all centres, radii and cutoffs, all spacings and line breaks", "why_tests_cant": "centres, radii and cutoffs are unbounded; the tests use one text with ten equal spheres", "anchors": ["src/pymcnp/inp/Dxt.py:Dxt", "src/pymcnp/inp/dxt/Shell.py:Shell", "src/pymcnp/inp/_card.py:Card.from_mcnp", "src/pymcnp/inp/_card.py:Card.to_mcnp"]}
