{
 "claims": [
  {
   "property": "C01",
   "status": "proved",
   "theorems": [
    "Props.C01_real_roundtrip"
   ],
   "note": ""
  },
  {
   "property": "C02",
   "status": "proved",
   "theorems": [
    "Props.C02_integer_roundtrip"
   ],
   "note": ""
  },
  {
   "property": "C03",
   "status": "partial",
   "theorems": [
    "Props.C03_integer_exact_partial",
    "Props.C03_integer_exact_plain_partial",
    "Props.C03_violated"
   ],
   "note": "Whole-number texts are read exactly; the full claim is false because fractional texts are truncated (C03_violated)."
  },
  {
   "property": "C04",
   "status": "proved",
   "theorems": [
    "Props.C04_exponent_spellings"
   ],
   "note": ""
  },
  {
   "property": "C05",
   "status": "partial",
   "theorems": [
    "Props.C05_real_errors_partial",
    "Props.C05_integer_errors_partial",
    "Props.C05_violated"
   ],
   "note": "Holds for non-empty texts (integers: that are not inf/nan); false on the empty text and on inf/nan (C05_violated)."
  },
  {
   "property": "C06",
   "status": "partial",
   "theorems": [
    "Props.C06_shorthand_roundtrip_partial",
    "Props.C06_shorthand_stable",
    "Props.C06_violated"
   ],
   "note": "Round trip for counts that are printed; false for zero counts, ILOG and negative factors (C06_violated)."
  },
  {
   "property": "C07",
   "status": "proved",
   "theorems": [
    "Props.C07_zaid_roundtrip",
    "Props.C07_zaid_stable",
    "Props.C07_zaid_split"
   ],
   "note": ""
  },
  {
   "property": "C08",
   "status": "partial",
   "theorems": [
    "Props.C08_distribution_roundtrip_partial",
    "Props.C08_distribution_first_digit",
    "Props.C08_violated",
    "Props.C08_violated_garbage"
   ],
   "note": "Round trip for one-digit distribution numbers; false beyond (only the first digit is kept, trailing garbage is accepted)."
  },
  {
   "property": "C09",
   "status": "proved",
   "theorems": [
    "Props.C09_ranges",
    "Props.C09_accepts"
   ],
   "note": ""
  },
  {
   "property": "C10",
   "status": "proved",
   "theorems": [
    "Props.C10_index_roundtrip"
   ],
   "note": ""
  },
  {
   "property": "C11",
   "status": "proved",
   "theorems": [
    "Props.C11_geometry_stable"
   ],
   "note": ""
  },
  {
   "property": "C12",
   "status": "partial",
   "theorems": [
    "Props.C12_precedence_partial",
    "Props.C12_mixed_exact",
    "Props.C12_violated"
   ],
   "note": "Holds for all texts that do not mix ':' and juxtaposition at one parenthesis level; false otherwise (C12_violated)."
  },
  {
   "property": "C13",
   "status": "partial",
   "theorems": [
    "Props.C13_compose_partial",
    "Props.C13_intersect_partial",
    "Props.C13_unite_partial",
    "Props.C13_violated"
   ],
   "note": "Holds for '|' on all operands and for '&'/unary where no parentheses are needed; false otherwise (C13_violated)."
  },
  {
   "property": "C14",
   "status": "partial",
   "theorems": [
    "Props.C14_show_partial",
    "Props.C14_show_missing",
    "Props.C14_violated"
   ],
   "note": "Holds for expressions without '#n' on a cell number; for '#n' the shape is the opposite (C14_violated)."
  },
  {
   "property": "C15",
   "status": "partial",
   "theorems": [
    "Props.C15_errors_partial",
    "Props.C15_violated"
   ],
   "note": "Exact set of possible outcomes; AssertionError and IndexError do escape (C15_violated)."
  },
  {
   "property": "C51",
   "status": "proved",
   "theorems": [
    "Props.C51_substance_roundtrip"
   ],
   "note": ""
  },
  {
   "property": "C52",
   "status": "proved",
   "theorems": [
    "Props.C52_designator_verbatim",
    "Props.C52_designator_accepts",
    "Props.C52_symbols"
   ],
   "note": ""
  },
  {
   "property": "C18",
   "status": "proved",
   "theorems": [
    "Props.C18_wrap_roundtrip"
   ],
   "note": ""
  },
  {
   "property": "C19",
   "status": "partial",
   "theorems": [
    "Props.C19_columns_partial",
    "Props.C19_violated"
   ],
   "note": "The true bound is 81 columns: continuation lines are indented by six blanks but counted as five; C19_violated shows an 81-column line."
  },
  {
   "property": "C20",
   "status": "partial",
   "theorems": [
    "Props.C20_print_read_partial",
    "Props.C20_expand_partial",
    "Props.C20_violated",
    "Props.C20_violated_print"
   ],
   "note": "Holds whenever no counted shorthand stands next to shorthand of the same letter; false otherwise (C20_violated)."
  },
  {
   "property": "C21",
   "status": "partial",
   "theorems": [
    "Props.C21_spacing_partial",
    "Props.C21_spacing_words",
    "Props.C21_violated"
   ],
   "note": "Holds for blanks, continuation lines and '='; tabs are replaced after blank runs have been collapsed, so they do matter (C21_violated)."
  },
  {
   "property": "C22",
   "status": "partial",
   "theorems": [
    "Props.C22_comments_collected_partial",
    "Props.C22_violated"
   ],
   "note": "Comments are collected in order and do not affect the card text; printing a card never writes them back (see Card model)."
  },
  {
   "property": "C23",
   "status": "partial",
   "theorems": [
    "Props.C23_card_exact_partial",
    "Props.C23_option_exact_partial",
    "Props.C23_card_partial",
    "Props.C23_option_partial",
    "Props.native_count",
    "Props.C24_violated",
    "Props.C26_violated"
   ],
   "note": "For the 546 classes of a first word and scalar entries: read back unchanged iff the printed entries are assigned to their own fields (exact), and always when no unset field precedes a set one and lists stand last. Missing: the other 133 classes; false when fields are left out (C24) or lists precede optional entries (C26, C27)."
  },
  {
   "property": "C24",
   "status": "partial",
   "theorems": [
    "Props.C24_holes_partial",
    "Props.C24_violated"
   ],
   "note": "For cards of optional entries of one type: read back unchanged iff no unset entry precedes a set one. The full claim is false (C24_violated)."
  },
  {
   "property": "C25",
   "status": "partial",
   "theorems": [
    "Props.C25_card_read_partial",
    "Props.C25_option_read_partial",
    "Props.C25_assign_all",
    "Props.C25_assign_some",
    "Props.C25_violated"
   ],
   "note": "Proved for the 546 classes of a first word and scalar entries; false for M and FMULT, whose options are read from a wrong group (C25_violated)."
  },
  {
   "property": "C26",
   "status": "partial",
   "theorems": [
    "Props.C26_last_two_partial",
    "Props.C26_cosine_read",
    "Props.C26_cosine_last_two",
    "Props.C26_violated"
   ],
   "note": "With three or more entries the last two are always the flags, so bounds are kept only when both flags are written; the claim is false (C26_violated)."
  },
  {
   "property": "C27",
   "status": "partial",
   "theorems": [
    "Props.C27_histp_partial",
    "Props.C27_ssw",
    "Props.C27_ssw_round",
    "Props.C27_ssw_exact",
    "Props.C27_violated"
   ],
   "note": "HISTP: kept iff the history length is set or there are no cells. SSW: whatever the lists and options, the first number is read as the only surface and all others as cells, so a printed card is kept iff it has one surface. The property as stated is false (C27_violated)."
  },
  {
   "property": "C28",
   "status": "partial",
   "theorems": [
    "Props.C28_partial",
    "Props.C28_violated"
   ],
   "note": "All transformation cards except eight entries with a system flag, which is read as nine entries (C28_violated). The union is restricted to the TR classes."
  },
  {
   "property": "C29",
   "status": "partial",
   "theorems": [
    "Props.C29_case_partial",
    "Props.C29_words_partial",
    "Props.C29_words_classes",
    "Props.C29_keyword_case_partial",
    "Props.C29_violated"
   ],
   "note": "The code violates it: a number that begins with its exponent is read in lower case only (`nps e5`), the words `nd` and `no` likewise (C29_violated). Proved for every text of 149 data cards, cells, like-cells and surfaces: any change of case gives the same exception or the same object up to the case of its texts, if an `e` before a digit, sign or underscore stays. Word by word (545 classes, 103 data cards) only an `e` at the beginning of an entry has to stay: `E4 1E5` is read like `e4 1e5`."
  },
  {
   "property": "C48",
   "status": "partial",
   "theorems": [
    "Props.C48_option_union_partial",
    "Props.C48_card_union",
    "Props.C48_card_union_fails",
    "Props.C48_violated"
   ],
   "note": "First-match is proved; errors that are not library errors escape from the union (C48_violated)."
  },
  {
   "property": "C30",
   "status": "proved",
   "theorems": [
    "Props.C30_set",
    "Props.C30_idempotent",
    "Props.C30_history",
    "Props.C30_card"
   ],
   "note": "Cards are heap objects; any history of assignments, new cards, replaced data blocks. Booleans, infinite floats and NaN as arguments are not modelled."
  },
  {
   "property": "C31",
   "status": "proved",
   "theorems": [
    "Props.C31_set",
    "Props.C31_history"
   ],
   "note": "Same heap model; includes rejected assignments."
  },
  {
   "property": "C32",
   "status": "partial",
   "theorems": [
    "Props.C32_step_partial",
    "Props.C32_history_partial",
    "Props.C32_violated"
   ],
   "note": "The code violates it: assigning the material never looks at the density. Proved: exactly which assignments keep the invariant."
  },
  {
   "property": "C33",
   "status": "partial",
   "theorems": [
    "Props.C33_history_partial",
    "Props.C33_violated"
   ],
   "note": "The code violates it: the number is unchecked when a transformation is attached. Proved for surfaces without one; transformation numbers always in 0..999."
  },
  {
   "property": "C34",
   "status": "partial",
   "theorems": [
    "Props.C34_automatic_partial",
    "Props.C34_violated"
   ],
   "note": "The code violates it: the counter ignores explicit numbers. Proved: automatic numbers of a session are distinct."
  },
  {
   "property": "C36",
   "status": "partial",
   "theorems": [
    "Props.C36_first_partial",
    "Props.C36_texts",
    "Props.C36_violated"
   ],
   "note": "The code violates it for every such input (C36_violated is universal); the partial theorem says exactly which cell lists the constructor accepts."
  },
  {
   "property": "C16",
   "status": "partial",
   "theorems": [
    "Props.C16_lattice_stable_partial",
    "Props.C16_violated",
    "Props.lattice_accepts"
   ],
   "note": "The code violates it: `1 2<3` prints as `1<2<3`, which is read as a different tree. Proved: printing is stable, the levels named are preserved, and left-nested trees are reproduced exactly."
  },
  {
   "property": "C17",
   "status": "partial",
   "theorems": [
    "Props.C17_exact",
    "Props.C17_mixtures_partial",
    "Props.C17_violated"
   ],
   "note": "The code violates it: a single second index before a range third index raises AssertionError, for all integers. C17_exact decides all eight mixtures with arbitrary blanks."
  },
  {
   "property": "C53",
   "status": "partial",
   "theorems": [
    "Props.C53_errors_partial",
    "Props.C53_violated",
    "Props.C53_card_violated"
   ],
   "note": "The code violates it: groups in parentheses raise AssertionError, unclosed ones IndexError. Proved: no other escape, and none without parentheses and brackets."
  },
  {
   "property": "C54",
   "status": "partial",
   "theorems": [
    "Props.C54_violated",
    "Props.C54_card_violated",
    "Props.C54_cards_merged",
    "Props.C54_file_merged",
    "Props.C54_one_bin_partial",
    "Props.C54_plain_partial"
   ],
   "note": "The code violates it for every pair of expressions (C54_violated) and, for cards read as tallies over repeated structures (F_4), for every accepted card whose bins are cells or chains of cells, whatever its spacing (C54_cards_merged): all of them end up in one bin. In the data block of a file every such card with at least one chain is read this way (C54_file_merged); lists of plain numbers go to another class first and are kept. Cards with one bin keep it (C54_one_bin_partial), and cards of plain numbers keep one bin per number (C54_plain_partial)."
  },
  {
   "property": "C35",
   "status": "partial",
   "theorems": [
    "Props.C35_sections_partial",
    "Props.C35_file_partial",
    "Props.C35_message_violated",
    "Props.C35_title_violated",
    "Props.C35_empty_violated"
   ],
   "note": "Proved for files without a message whose title, cards and trailing text are made of words, for any number of cards, lines and words and any line wrapping. The claim is false with a message, for titles with blanks, =, & or a leading #, and for files with an empty block."
  },
  {
   "property": "C37",
   "status": "partial",
   "theorems": [
    "Props.C37_i_line_partial",
    "Props.C37_zero_violated",
    "Props.C37_short_violated"
   ],
   "note": "Proved for optional values other than zero, the last with six or more digits. The code violates it for zero (dropped) and for shorter decimals (the line is unreadable)."
  },
  {
   "property": "C38",
   "status": "partial",
   "theorems": [
    "Props.C38_j_line",
    "Props.C38_event_partial",
    "Props.C38_shadowed",
    "Props.C38_event_violated"
   ],
   "note": "C38_j_line is the round trip of each of the eight classes. Through Event the claim fails: layouts 2, 4, 5 and 6 are read as the first layout of their width, and layout 6 then loses its decimals."
  },
  {
   "property": "C39",
   "status": "partial",
   "theorems": [
    "Props.C39_values_partial",
    "Props.C39_text_partial",
    "Props.C39_short_violated",
    "Props.C39_infinite_violated"
   ],
   "note": "Proved for decimals of five or more digits and for the text MCNP writes. The code violates it for shorter decimals and infinity."
  },
  {
   "property": "C41",
   "status": "proved",
   "theorems": [
    "Props.C41_filter",
    "Props.C41_processor",
    "Props.C41_all"
   ],
   "note": "Histories of any length."
  },
  {
   "property": "C50",
   "status": "proved",
   "theorems": [
    "Props.C50_event_codes",
    "Props.C50_event_codes_refuse"
   ],
   "note": "Every text."
  },
  {
   "property": "C56",
   "status": "partial",
   "theorems": [
    "Props.C56_history_partial",
    "Props.C56_empty_violated"
   ],
   "note": "Proved for any number of events (at least one) whose layout is not shadowed. The code violates it for a history without events."
  },
  {
   "property": "C57",
   "status": "partial",
   "theorems": [
    "Props.C57_p",
    "Props.C57_v",
    "Props.C57_l",
    "Props.C57_j_partial",
    "Props.C57_i_partial",
    "Props.C57_event_partial",
    "Props.C57_history_partial",
    "Props.C57_n_partial",
    "Props.C57_header_partial",
    "Props.C57_file_partial",
    "Props.C57_unknown_code_violated",
    "Props.C57_unknown_code",
    "Props.C57_shorthand_violated",
    "Props.C57_special_violated"
   ],
   "note": "The code violates it in three ways: an unknown event type raises UnboundLocalError (for every event of the right shape), an integer field that reads as infinity or not-a-number raises OverflowError or ValueError, a shorthand in a history raises AttributeError. For every text there is no other exception; P lines, V blocks and L blocks raise library errors only."
  },
  {
   "property": "C40",
   "status": "partial",
   "theorems": [
    "Props.C40_n_block",
    "Props.C40_l_block_partial",
    "Props.C40_l_violated",
    "Props.C40_l_merge_violated",
    "Props.C40_v_block_partial",
    "Props.C40_v_block_same",
    "Props.C40_v_violated"
   ],
   "note": "N blocks: all. L blocks: values of up to three characters, any length that is no multiple of thirty. V blocks: any nonzero multiple of ten. The code violates it for every other length and for ids of four digits."
  },
  {
   "property": "C42",
   "status": "partial",
   "theorems": [
    "Props.C42_partial",
    "Props.C42_events",
    "Props.C42_failing_violated"
   ],
   "note": "Proved for every interleaving of any number of iterators when every element can be read, which C42_events shows for the events of a history. The code violates it when an element cannot be read: a second pass ends silently where the first raised."
  },
  {
   "property": "C49",
   "status": "partial",
   "theorems": [
    "Props.C49_partial",
    "Props.C49_built",
    "Props.C49_alias_violated"
   ],
   "note": "Proved for tuples and text. The code violates it for lists: the object keeps the caller's list, so None appended afterwards appears in it."
  },
  {
   "property": "C58",
   "status": "partial",
   "theorems": [
    "Props.C58_header_partial",
    "Props.C58_file_partial",
    "Props.C58_swallow_violated",
    "Props.C58_nine_violated",
    "Props.C58_padding_violated"
   ],
   "note": "Proved for files of any number of histories and events with positions only and header texts that fill their columns. The code violates it for P lines of nine values (refused, or read as a file without histories) and for shorter texts (padded)."
  },
  {
   "property": "C43",
   "status": "proved",
   "theorems": [
    "Props.C43_row_roundtrip",
    "Props.C43_row_read"
   ],
   "note": "For every text that is read as a row."
  },
  {
   "property": "C59",
   "status": "partial",
   "theorems": [
    "Props.C59_row_columns_partial",
    "Props.C59_xyz_violated"
   ],
   "note": "Exact characterisation: sixteen of the thirty-two combinations keep their columns. The code violates it for the others, among them the usual rows with x, y and z only."
  },
  {
   "property": "C60",
   "status": "partial",
   "theorems": [
    "Props.C60_header_roundtrip",
    "Props.C60_file_roundtrip_partial",
    "Props.C60_rows_never_raise",
    "Props.C60_bins",
    "Props.C60_total_row_violated",
    "Props.C60_second_mesh_violated"
   ],
   "note": "Proved for headers whose values fit and any number of rows with one of seven combinations of columns. The code violates it for other rows (rows of totals lose their last digit) and for files with several meshes (lines of the second header become rows)."
  },
  {
   "property": "C61",
   "status": "partial",
   "theorems": [
    "Props.C61_blocks_exact",
    "Props.C61_blocks_reread",
    "Props.C61_density_exact_violated"
   ],
   "note": "Rereading is proved for all seven classes and exact printing for the four that keep every field. The slope of a density block is lost."
  },
  {
   "property": "C62",
   "status": "partial",
   "theorems": [
    "Props.C62_tally_reread_partial",
    "Props.C62_tally_subs",
    "Props.C62_message_violated",
    "Props.C62_lines_violated"
   ],
   "note": "Proved for all six classes when every subtally has a line and there is no message. The code violates it for a pulse height tally with a message and for a subtally whose lines have another form."
  },
  {
   "property": "C44",
   "status": "partial",
   "theorems": [
    "Props.C44_blocks_kept",
    "Props.C44_no_shadowing",
    "Props.C44_one_class",
    "Props.C44_blocks_there",
    "Props.C44_tables_partial",
    "Props.C44_tables_overwritten",
    "Props.C44_tables_empty"
   ],
   "note": "That no block is lost, in both directions and for every text, and that no class takes the blocks of another is proved. The tables are proved for files whose tally numbers differ and whose subtallies have lines; the code violates the claim otherwise: a tally in the file twice is overwritten, a subtally without lines raises ValueError. The conversion of the fields to float is the subject of C103."
  },
  {
   "property": "C63",
   "status": "partial",
   "theorems": [
    "Props.C63_file_reread_partial",
    "Props.C63_file_violated"
   ],
   "note": "Proved when every subtally has a line and no tally has a message. The code violates it for a tally with a message, which is lost."
  },
  {
   "property": "C45",
   "status": "proved",
   "theorems": [
    "Props.C45_order",
    "Props.C45_after_exit",
    "Props.C45_exits",
    "Props.C45_returns",
    "Props.C45_failure_abandons"
   ],
   "note": "For every schedule of process ends and of other programs, by an invariant of the transition system. C45_failure_abandons shows what the claim leaves open: when a hook or a directory raises, the processes started so far are left running and no further hook is called."
  },
  {
   "property": "C46",
   "status": "proved",
   "theorems": [
    "Props.C46_directories",
    "Props.C46_files",
    "Props.C46_own_directory",
    "Props.C46_same_directory",
    "Props.C46_names",
    "Props.C46_same_second"
   ],
   "note": "Runs that proceed have different directories. A second run in the same second raises FileExistsError before it writes anything (C46_same_directory, C46_same_second). The hooks are taken not to create directories or files of the run themselves."
  },
  {
   "property": "C47",
   "status": "partial",
   "theorems": [
    "Props.C47_partial",
    "Props.C47_collisions",
    "Props.C47_no_point",
    "Props.C47_zero_violated",
    "Props.C47_plot_violated",
    "Props.C47_directory_violated"
   ],
   "note": "Proved for identifiers that do not end in zero; C47_collisions says exactly which pairs collide. The code violates it for numbers that differ by zeros at the end, for plots, and for paths whose only point is in a directory."
  },
  {
   "property": "C64",
   "status": "partial",
   "theorems": [
    "Props.C64_save",
    "Props.C64_convert_partial",
    "Props.C64_convert_violated"
   ],
   "note": "Proved for saving, and for exporting a tally that is in a file whose tally numbers differ and whose subtallies have lines. The code violates it for a tally number that is not in the file: the target is emptied. Failures of the operating system while writing are not modelled."
  },
  {
   "property": "C65",
   "status": "partial",
   "theorems": [
    "Props.C65_fix_safe",
    "Props.C65_fix_partial",
    "Props.C65_input_partial",
    "Props.C65_fix_violated"
   ],
   "note": "That nothing is changed on failure and no other file is touched is proved for every reader and printer. That the input is kept is proved under the hypotheses of C35_file_partial; the code violates it for a file with a message."
  },
  {
   "property": "C66",
   "status": "partial",
   "theorems": [
    "Props.C66_read",
    "Props.C66_roundtrip_partial",
    "Props.C66_violated"
   ],
   "note": "The reading is proved for every card of the form sign-number, entries. The round trip is proved for every kind of surface with finite coefficients and bare shorthand, required entries set and no unset entry before a set one; numbers that are infinite or counted shorthand are left out (C05, C20), and the code violates the property for gaps among optional entries (C66_violated)."
  },
  {
   "property": "C67",
   "status": "partial",
   "theorems": [
    "Props.C67_number_partial",
    "Props.C67_violated"
   ],
   "note": "Proved for surfaces without transformation, and for the transformation itself. The code violates it for surfaces with a transformation: the test is `... if not transform else 999`, which is true for every number."
  },
  {
   "property": "C68",
   "status": "partial",
   "theorems": [
    "Props.C68_read_partial",
    "Props.C68_keyword_partial",
    "Props.C68_roundtrip_partial",
    "Props.C68_longest_first",
    "Props.C68_lists_lost",
    "Props.C68_keyword_lost",
    "Props.C68_list_first",
    "Props.C68_list_violated",
    "Props.C68_direction_violated",
    "Props.C68_particle_violated"
   ],
   "note": "Proved for options whose entries go one to a field and whose class is not preceded by a class that accepts a beginning of the option; for the 18 cards whose options differ in their keywords the second condition always holds. The code violates it for lists: of every list of plain numbers in one of 40 options only the first entry is kept (C68_list_first, for all texts), and the others are dropped without an error; also for direction cosines that begin with 0 and for particles that depend on another variable. Round trip: options with at least one entry, filled from the left. Options whose entry is one of several fixed words (geom of mesh tallies, file, write and conic of particle tracks, file and reset of plots) are included. Options with nested options are left out."
  },
  {
   "property": "C69",
   "status": "partial",
   "theorems": [
    "Props.C69_read_partial",
    "Props.C69_range",
    "Props.C69_roundtrip_partial",
    "Props.C69_moved_partial",
    "Props.C69_moved_roundtrip_partial",
    "Props.C69_lists_lost",
    "Props.C69_violated",
    "Props.C100_cell_lost"
   ],
   "note": "C69_lists_lost determines what happens to lists of plain numbers in options (temperatures): the first entry is kept and the others are lost. Proved for cards whose geometry has no letters (no other geometry is accepted) and whose options have entries that go one to a field and a class that is not preceded by a class accepting a beginning of the option. Round trip: integer number and material, finite density, any geometry the reader can produce, options with at least one entry and filled from the left. Transformations among the options (trcl with its entries) are read and round trip as well (the two theorems named moved); missing there: an option beginning like a number after a transformation without a parenthesis, and eight entries with a system. The code violates it for fills (lattices keep one universe, transformations are lost), lists of temperatures and transformations (printed without parentheses)."
  },
  {
   "property": "C70",
   "status": "partial",
   "theorems": [
    "Props.C70_keyword",
    "Props.C70_union",
    "Props.C70_result",
    "Props.C70_first",
    "Props.C70_later",
    "Props.C70_alone",
    "Props.C70_roundtrip_partial",
    "Props.C70_violated"
   ],
   "note": "Proved for all texts: no two classes with different keywords, the first class of a keyword, classes alone with their keyword. Later classes of a keyword read their cards when the earlier ones refuse them (C70_later); the code violates the round trip for them: a card of Phys_4 for neutrons is read as Phys_0, and sp1 -21 1 as a table of probabilities."
  },
  {
   "property": "C71",
   "status": "partial",
   "theorems": [
    "Props.C71_roundtrip_partial",
    "Props.C71_importance",
    "Props.C71_message_violated"
   ],
   "note": "Proved for files of any length made of cells, like cards, comments, surfaces and data cards that are built from readable parts (C69, C72, C73, C66, C23, C68). Cells and like cards may hold transformations (C69 and C72, the theorems named moved). Missing: messages, empty blocks, titles and trailing text that are not words one blank apart. The code violates the property for messages."
  },
  {
   "property": "C72",
   "status": "partial",
   "theorems": [
    "Props.C72_read_partial",
    "Props.C72_range",
    "Props.C72_roundtrip_partial",
    "Props.C72_moved_partial",
    "Props.C72_moved_roundtrip_partial",
    "Props.C72_lists_lost",
    "Props.C100_like_lost"
   ],
   "note": "Proved for cards whose options are each found by their own class. C72_lists_lost determines what happens to lists of plain numbers: the first entry is kept. Missing: the other options that the lazy patterns cut short (as in C69_violated) and options without entries."
  },
  {
   "property": "C73",
   "status": "partial",
   "theorems": [
    "Props.C73_read_partial",
    "Props.C73_blocks",
    "Props.C73_roundtrip_partial",
    "Props.C73_violated",
    "Props.C73_lines_violated"
   ],
   "note": "Recognition in all blocks is proved for all words; reading and printing for words without meaning to the reader of lines. The code changes comments with =, $, repeated blanks or shorthand, and continues long comments on lines that are no comments."
  },
  {
   "property": "C74",
   "status": "partial",
   "theorems": [
    "Props.C74_cards_partial",
    "Props.C74_files_partial",
    "Props.C74_violated"
   ],
   "note": "Proved for cards of one block and whole files made of readable parts (C71). The code violates the property for numbers that are equal but written differently (1.0 and 1) and for a comment without text, which equals one with an empty text."
  },
  {
   "property": "C75",
   "status": "partial",
   "theorems": [
    "Props.C75_integer",
    "Props.C75_real",
    "Props.C75_infinite",
    "Props.C75_arithmetic",
    "Props.C75_power",
    "Props.C75_power_violated",
    "Props.C75_violated"
   ],
   "note": "Proved for Integer with Integer and int (sums, differences, products, quotients, remainders, divmod and powers), and for Real, finite or infinite, with Real, Decimal and int. The code violates the property for an Integer with a Real or a Decimal: every comparison and every result is None. Arithmetic of Real is C90 and C93; powers of Real are not modelled."
  },
  {
   "property": "C55",
   "status": "partial",
   "theorems": [
    "Props.C55_partial",
    "Props.C55_indented_violated",
    "Props.C55_lost_violated",
    "Props.C55_violated"
   ],
   "note": "Proved for blocks of at least two columns whose rows begin in the first column with a digit and that are followed by a line that is no row. The code violates the property otherwise: with blanks before the rows every card gets the entries of the card to its left; of two blocks without a line in between the second ends the data block and everything after it is lost; blocks of one column are not recognised."
  },
  {
   "property": "C76",
   "status": "proved",
   "theorems": [
    "Props.C76_message",
    "Props.C76_distinct"
   ],
   "note": "All classes and all codes raised in the library; the codes raised are a list made by reading the raise statements."
  },
  {
   "property": "C77",
   "status": "partial",
   "theorems": [
    "Props.C77_check",
    "Props.C77_fix",
    "Props.C77_fixed_partial",
    "Props.C77_run",
    "Props.C77_run_unreadable",
    "Props.C77_run_violated",
    "Props.C77_convert",
    "Props.C77_check_status",
    "Props.C77_convert_status",
    "Props.C77_run_status"
   ],
   "note": "Proved for check, check --fix and convert, and for run up to the start of the batch and for its status at the end. The code violates the property for run when the command is not found: nothing is run and the status is 0. That a fixed file can be read again is proved for files made of readable parts."
  },
  {
   "property": "C78",
   "status": "partial",
   "theorems": [
    "Props.C78_sides_partial",
    "Props.C78_points",
    "Props.C78_cells_partial",
    "Props.C78_cylinders",
    "Props.C78_cylinders_violated",
    "Props.C78_cones_violated",
    "Props.C78_bodies_violated",
    "Props.C78_insides_violated",
    "Props.C78_undrawn_violated",
    "Props.C78_transformations_violated"
   ],
   "note": "Proved, over the real numbers, for planes, spheres, parallelepipeds, boxes along the axes and upright cylinders, for cells made from them without complements of cells, and for cells like such cells. The code violates the property for all cylinders without ends (inside out, and about the wrong axis), all cones, ellipsoids, truncated cones, inclined bodies, tori, wedges and prisms, three points in the other order, and ignores transformations; one quadric, ARB or X/Y/Z surface keeps every cell from being drawn. Complements of cells: C14_violated."
  },
  {
   "property": "C79",
   "status": "partial",
   "theorems": [
    "Props.C79_planes",
    "Props.C79_planes_violated",
    "Props.C79_meshes_partial",
    "Props.C79_cylinders_partial",
    "Props.C79_parallel_violated",
    "Props.C79_cones_partial",
    "Props.C79_sheets_violated",
    "Props.C79_tori",
    "Props.C79_tori_partial",
    "Props.C79_tori_violated",
    "Props.C79_rcc",
    "Props.C79_rcc_violated",
    "Props.C79_trc_violated",
    "Props.C79_bodies_partial",
    "Props.C79_bodies_violated"
   ],
   "note": "Proved, over the real numbers and for the smooth sets that pyvista approximates, for planes (with the exact condition), spheres, parallelepipeds, cylinders without ends, cones along the first and third axes, tori with a circular section, boxes with edges along the axes and ellipsoids with a centre along the first axis. The code violates the property for other planes, c/z, cones along the second axis (the other sheet), other tori (radii swapped), rcc (displaced by half its length), trc, rec (twice its height) and oblique ell (turned the wrong way). Oblique boxes and ell with foci are not treated; the meshes of rhp and wed are not modelled."
  },
  {
   "property": "C80",
   "status": "partial",
   "theorems": [
    "Props.C80_table",
    "Props.C80_entries",
    "Props.C80_single_partial",
    "Props.C80_elements_partial",
    "Props.C80_atoms",
    "Props.C80_atoms_violated",
    "Props.C80_isotopes",
    "Props.C80_isotopes_violated",
    "Props.C80_unnatural_violated",
    "Props.C80_unknown"
   ],
   "note": "The entries are characterised exactly, over the rational numbers and given the composition that molmass reports. With weights the fractions of elements are right (nothing cut off, natural elements) and those of elements with a single isotope. The code violates the property otherwise: with atomic fractions it enters the weights; the share of an isotope is that of atoms also with weights; elements without natural isotopes are left out."
  },
  {
   "property": "C81",
   "status": "partial",
   "theorems": [
    "Props.C81_partial",
    "Props.C81_violated"
   ],
   "note": "Proved, over the real numbers, for bounds that are symmetric about the origin. The code violates the property otherwise: the grid is always centred at the origin."
  },
  {
   "property": "C82",
   "status": "partial",
   "theorems": [
    "Props.C82_cells",
    "Props.C82_left_out_partial",
    "Props.C82_left_out_violated",
    "Props.C82_text_violated",
    "Props.C82_surfaces",
    "Props.C82_windows",
    "Props.C82_drawn",
    "Props.C82_files_partial",
    "Props.C82_files_name",
    "Props.C82_files_violated"
   ],
   "note": "Proved for listed cells and surfaces, for surfaces left out, and for the command with windows. The code violates the property when a remaining cell is made from one that is left out (KeyError, or the surface of the same number instead), when a number is given as a text (12 also draws 1 and 2), and for files: what is to be skipped is in the file, listed surfaces raise TypeError, listed cells end in an error. docopt is not modelled."
  },
  {
   "property": "C83",
   "status": "partial",
   "theorems": [
    "Props.C83_figures_partial",
    "Props.C83_lines_partial",
    "Props.C83_unknown",
    "Props.C83_shared_violated"
   ],
   "note": "Proved for files that have tables (C44: tally numbers differ, every subtally has a line, its texts are numbers). Subtallies at the same place share a figure. What matplotlib draws is not modelled; the numbers are the subject of C103."
  },
  {
   "property": "C84",
   "status": "proved",
   "theorems": [
    "Props.C84_filter",
    "Props.C84_filter_pure",
    "Props.C84_filter_raises",
    "Props.C84_processor"
   ],
   "note": "For checks and methods that may depend on everything seen before and may raise."
  },
  {
   "property": "C85",
   "status": "partial",
   "theorems": [
    "Props.C85_outp",
    "Props.C85_block",
    "Props.C85_row",
    "Props.C85_header_partial",
    "Props.C85_meshtal_partial",
    "Props.C85_special_violated"
   ],
   "note": "OUTP files, their blocks and MESHTAL rows: proved for every text. MESHTAL headers violate it: a number of histories or a tally number that reads as infinity or not-a-number raises OverflowError or ValueError; proved that there is no other exception."
  },
  {
   "property": "C86",
   "status": "partial",
   "theorems": [
    "Props.C86_told",
    "Props.C86_card_partial",
    "Props.C86_cause_partial",
    "Props.C86_data_partial",
    "Props.C86_data_violated",
    "Props.C86_surface_partial",
    "Props.C86_surface_violated",
    "Props.C86_cell_partial",
    "Props.C86_cell_violated",
    "Props.C86_file_partial"
   ],
   "note": "Proved for every text and 110 of the 152 data cards. 39 others raise TypeError or AttributeError, for 22 of them proved to come from a shorthand among the entries; surfaces raise these, OverflowError, ValueError or the ArithmeticError of decimal, each traced to the number of the surface or to the coordinates of a plane through three points; F_4, Files and Phys_2, cells and like cards raise further exceptions, listed with witnesses. A whole file raises nothing that none of its lines raises."
  },
  {
   "property": "C87",
   "status": "partial",
   "theorems": [
    "Props.C87_make_partial",
    "Props.C87_change_partial",
    "Props.C87_violated"
   ],
   "note": "Proved for whole coordinates below 2^25 in magnitude, where the floating-point test is exact; for others it fails in both directions (witnesses)."
  },
  {
   "property": "C88",
   "status": "partial",
   "theorems": [
    "Props.C88_contents_partial",
    "Props.C88_plane",
    "Props.C88_history_partial",
    "Props.C88_violated"
   ],
   "note": "Proved for 672 of the 679 classes and for the plane through three points. The other six (Xlims, Ylims, the Bcw option of SSR, Cell, Kcode, Surface) violate it: one attribute is tested against another, but not the other way round (a witness for each)."
  },
  {
   "property": "C89",
   "status": "partial",
   "theorems": [
    "Props.C89_outcome",
    "Props.C89_object_partial",
    "Props.C89_region_partial",
    "Props.C89_violated"
   ],
   "note": "Which expressions have a value is decided for all of them, and the object itself is the region unless the complement of a surface is taken. The region is proved for intersections of unions of sides. The code violates the property for unions of intersections (no parentheses are printed) and, for every surface, for its complement, which is printed as the complement of the cell of the same number."
  },
  {
   "property": "C90",
   "status": "partial",
   "theorems": [
    "Props.C90_sum_partial",
    "Props.C90_violated"
   ],
   "note": "Proved for values read from a text. The code violates the property for all values assigned from an int or a float: with every number on either side they raise TypeError (C90_violated is universal). Infinities, and numbers beyond 10^200000 or with more digits, are left out."
  },
  {
   "property": "C91",
   "status": "partial",
   "theorems": [
    "Props.C91_int",
    "Props.C91_float_partial",
    "Props.C91_violated"
   ],
   "note": "Proved for whole numbers. For floats the exact condition is proved: the text has to denote the value exactly. The code violates the property for the others, such as 0.1."
  },
  {
   "property": "C92",
   "status": "partial",
   "theorems": [
    "Props.C92_keyword",
    "Props.C92_segments",
    "Props.C92_volumes",
    "Props.C92_bins",
    "Props.C92_apart_partial",
    "Props.C92_rows_partial",
    "Props.C92_material_partial",
    "Props.C92_tally_read",
    "Props.C92_tally_partial",
    "Props.C92_option_rows_partial",
    "Props.C92_rows_read",
    "Props.C92_option_rows_read",
    "Props.C92_rows_refused",
    "Props.C92_depend_read",
    "Props.C92_depend_pairs_partial",
    "Props.C92_depend_distributions_partial",
    "Props.C92_depend_lost",
    "Props.C92_photon_bias_lost",
    "Props.C92_photon_bias_ignored",
    "Props.C92_changed_violated",
    "Props.C92_lost_violated",
    "Props.C92_refused_violated"
   ],
   "note": "Proved for 20 classes and for every flat card whose entries cannot slide; for cards with a keyword the condition is exact. Point and ring detectors, biases of photon production and two kinds of dependent sources change their numbers, materials with options lose them, cells in parentheses raise AssertionError (witnesses). For all cards: the biases of photon production are replaced by atomic numbers, and values depending on distributions by the number of the distribution. Options made of rows and cards of dependent sources are read row by row; a number of entries that is not a multiple of the width of a row is refused."
  },
  {
   "property": "C93",
   "status": "partial",
   "theorems": [
    "Props.C93_whole_partial",
    "Props.C93_frac_partial",
    "Props.C93_violated",
    "Props.C93_violated_made"
   ],
   "note": "Proved for values read from a text. The code violates the property: whole numbers held as Real cut the quotient off, as Integer they round it down (C93_violated says exactly when they agree), and values assigned from an int or a float raise TypeError with every number (C93_violated_made). Infinities, and numbers beyond 10^200000 or with more digits, are left out."
  },
  {
   "property": "C94",
   "status": "partial",
   "theorems": [
    "Props.C94_read_partial",
    "Props.C94_made_partial",
    "Props.C94_violated_float",
    "Props.C94_violated_shorthand"
   ],
   "note": "Proved for all values but shorthand, with each other, with whole numbers and decimals, and with floats whose text is exact. The code violates the property for other floats (Real.from_mcnp('0.1') == 0.1 with different hashes) and for every shorthand, which equals itself but cannot be hashed. NaN equals nothing."
  },
  {
   "property": "C95",
   "status": "partial",
   "theorems": [
    "Props.C95_read_partial",
    "Props.C95_roundtrip_partial",
    "Props.C95_violated"
   ],
   "note": "Proved for text made of words one or more blanks or line breaks apart, read as the words one blank apart. The code violates the property for text with equals signs (which become blanks), several blanks in a row, dollar signs (the rest is lost) and words that look like shorthand with a count (2r is written out)."
  },
  {
   "property": "C96",
   "status": "partial",
   "theorems": [
    "Props.C96_whole",
    "Props.C96_refused",
    "Props.C96_float",
    "Props.C96_bool",
    "Props.C96_sign_partial",
    "Props.C96_violated"
   ],
   "note": "Everything but the sign operators is proved in full. -x, +x and abs(x) of a Real round to 28 digits: negating a decimal of 29 digits twice does not give it back (C96_violated); for decimals of up to 28 digits and exponents between -200000 and 200000 they are exact."
  },
  {
   "property": "C97",
   "status": "partial",
   "theorems": [
    "Props.C97_transformation",
    "Props.C97_transformation_roundtrip",
    "Props.C97_option",
    "Props.C97_other",
    "Props.C97_roundtrip_partial",
    "Props.C97_class_roundtrip",
    "Props.C97_violated",
    "Props.C97_following_violated"
   ],
   "note": "Reading is proved for all texts. Printing and reading back among the options of a cell fails for eight entries with a system, which are read as nine entries, and for entries that are jumps (C97_violated); the round trip is proved for all other transformations of finite numbers, and for those too if read by their own class. In whole cells, entries without parentheses and system also take the beginning of a following option whose name begins with e or d (C97_following_violated)."
  },
  {
   "property": "C98",
   "status": "partial",
   "theorems": [
    "Props.C98_cell",
    "Props.C98_cell_history",
    "Props.C98_cell_new",
    "Props.C98_cell_bounds",
    "Props.C98_surface_partial",
    "Props.C98_surface_history",
    "Props.C33_violated"
   ],
   "note": "Proved for cells, and for the transformation, the kind and the prefix of surfaces. Numbers of surfaces are covered as long as no transformation is attached; with one, any number is accepted (C33_violated). Floats are kept as they are."
  },
  {
   "property": "C99",
   "status": "partial",
   "theorems": [
    "Props.C99_compare",
    "Props.C99_order",
    "Props.C99_join",
    "Props.C99_repeat",
    "Props.C99_item",
    "Props.C99_tuple_item",
    "Props.C99_part",
    "Props.C99_member_whole",
    "Props.C99_member_decimal",
    "Props.C99_violated"
   ],
   "note": "Everything is proved for a text or tuple on the left of the operator, and for comparisons and repetition by an int on either side. The code violates the property for str + String (TypeError), Integer * String (None), an Integer as a position in a tuple (TypeError) and an Integer searched in a tuple of reals (never found); C99_violated is universal. Slices and identity are not modelled."
  },
  {
   "property": "C100",
   "status": "partial",
   "theorems": [
    "Props.C100_holds",
    "Props.C100_option_partial",
    "Props.C100_cell_partial",
    "Props.C100_like_partial",
    "Props.C100_roundtrip_partial",
    "Props.C100_form_holds",
    "Props.C100_form",
    "Props.C100_form_number",
    "Props.C100_form_roundtrip_partial",
    "Props.C100_form_number_roundtrip",
    "Props.C100_form_violated",
    "Props.C100_cell_lost",
    "Props.C100_like_lost",
    "Props.C100_violated"
   ],
   "note": "Proved for a universe alone, followed by a word that is no number, and for a universe with a transformation of twelve entries, with or without a system. Read alone, transformations of every form and their numbers are read and printed correctly, except eight entries with a system and numbers in parentheses. In whole cells the code violates the property: transformations of fewer entries or given by their number are lost without a word in whole cells, and a lattice with several universes keeps only the first (C100_cell_lost and C100_like_lost say so for all such cells)."
  },
  {
   "property": "C101",
   "status": "partial",
   "theorems": [
    "Props.C101_read_partial",
    "Props.C101_holds",
    "Props.C101_roundtrip_partial",
    "Props.C101_violated"
   ],
   "note": "Proved for all variables but the particle, and for distributions up to 9 in what is held and printed. The code violates the property otherwise: a particle that depends on a variable loses the distribution, embedded distributions in parentheses or of other variables than the time are refused, and a distribution from 10 on loses digits (C08)."
  },
  {
   "property": "C102",
   "status": "proved",
   "theorems": [
    "Props.C102_numbers",
    "Props.C102_texts",
    "Props.C102_needed",
    "Props.C102_others",
    "Props.C102_holds",
    "Props.C102_read",
    "Props.C102_limits",
    "Props.C102_cylinder",
    "Props.C102_temperatures",
    "Props.C102_kept",
    "Props.C102_negative"
   ],
   "note": "For numbers (not NaN), None, jumps where they are documented, and texts; other shorthands as values of tested attributes are the subject of C86. The density of cells is the subject of C32, the number of surfaces of C33 and C67, the points of a plane of C87. C102_negative records that the numbers of tallies and similar cards have no lower limit."
  },
  {
   "property": "C103",
   "status": "partial",
   "theorems": [
    "Props.C103_spelled",
    "Props.C103_exactly",
    "Props.C103_underscores",
    "Props.C103_special",
    "Props.C103_cells",
    "Props.C103_spoilt",
    "Props.C103_violated"
   ],
   "note": "Violated for numbers with three-digit exponents, which MCNP prints without a letter (1.0000-101): one of them makes all tables of the file impossible (C103_violated). Infinities and nan are accepted besides (C103_special). The theorems on spelling are for texts without blanks, which lines never have. The rounding of numbers to binary is not modelled."
  },
  {
   "property": "C104",
   "status": "partial",
   "theorems": [
    "Props.C104_read",
    "Props.C104_all",
    "Props.C104_first",
    "Props.C104_pair",
    "Props.C104_rest",
    "Props.C104_long",
    "Props.C104_exact",
    "Props.C104_round",
    "Props.C104_violated"
   ],
   "note": "Violated for cards with gaps (C104_violated): with an earlier attribute unset, the words j j are given to earlier attributes; without j j, two jumps after the gap are read back as j j. C104_exact says which cards survive. Texts with comments or counted shorthand next to each other are outside Spaced, as in C25."
  },
  {
   "property": "C105",
   "status": "partial",
   "theorems": [
    "Props.C105_read",
    "Props.C105_refused",
    "Props.C105_point",
    "Props.C105_ring",
    "Props.C105_round_partial",
    "Props.C105_round_violated",
    "Props.C105_violated"
   ],
   "note": "Violated (C105_violated): the third coordinate and the radius of a point and the radius of a ring are read as whole numbers (C105_point, C105_ring say what is lost for all finite numbers); a detector with a word that is no number is dropped without an error, even if it is the only one; ND in capitals is refused. C105_round_partial leaves out negative card numbers and infinite coordinates, where the claim is false (C105_round_violated)."
  },
  {
   "property": "C106",
   "status": "partial",
   "theorems": [
    "Props.C106_read",
    "Props.C106_roundtrip_partial",
    "Props.C106_origin_lost"
   ],
   "note": "Reading is proved in full. The round trip is violated for every lattice with an origin (C106_origin_lost): the origin is printed without its parentheses and read back as one more universe."
  },
  {
   "property": "C107",
   "status": "partial",
   "theorems": [
    "Props.C107_read",
    "Props.C107_single_refused",
    "Props.C107_roundtrip_partial",
    "Props.C107_unnamed_violated",
    "Props.C107_single_violated"
   ],
   "note": "Reading and printing entries of three parts is proved in full, for the option on its own. The code violates the rest: every option with an entry of a single value is refused (C107_single_refused), and an entry without a name is printed with the name None and read back with it."
  },
  {
   "property": "C108",
   "status": "partial",
   "theorems": [
    "Props.C108_read",
    "Props.C108_printed",
    "Props.C108_roundtrip_partial",
    "Props.C108_lost",
    "Props.C108_merged",
    "Props.C108_plain_refused",
    "Props.C108_gap_violated"
   ],
   "note": "How every card is read is proved in full: five words at a time. The claim holds for cards whose files all have access, form and length, except at the end of the last. The code violates the rest: a word left over is ignored (C108_lost), a file without length swallows the unit of the next, whose name is lost (C108_merged), two files with unit and name only are printed and then refused (C108_plain_refused), and a file without access is printed so that its form is read as access (C108_gap_violated)."
  },
  {
   "property": "C109",
   "status": "partial",
   "theorems": [
    "Props.C109_read",
    "Props.C109_refused",
    "Props.C109_roundtrip_partial",
    "Props.C109_radius_violated"
   ],
   "note": "How every card is read is proved in full, and that every card with exactly ten spheres and three numbers is printed and read back unchanged. The code violates the rest: cards with any other number of entries are refused, so one to nine spheres cannot be read (C109_refused, all cards), and radii that are not whole are cut without an error (C109_radius_violated)."
  }
 ]
}