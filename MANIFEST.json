{
 "claims": [
  {
   "property": "C01",
   "status": "proved",
   "theorems": [
    "Slate.C01_draw_shows_screen",
    "Slate.C01_draw_shows_screen_true_color",
    "Slate.C01_cell_look"
   ],
   "note": "Non-redraw renders (redraw is C15). Texts printable; colours whose code is a colour code."
  },
  {
   "property": "C02",
   "status": "proved",
   "theorems": [
    "Slate.C02_any_cache",
    "Slate.C02_pending_iff_changed",
    "Slate.C02_draw_touches_pending",
    "Slate.C02_second_draw_is_reset",
    "Slate.C02_draw_after_any"
   ],
   "note": ""
  },
  {
   "property": "C03",
   "status": "proved",
   "theorems": [
    "Slate.C03_any_cache",
    "Slate.C03_return_counts_changes",
    "Slate.C03_zero"
   ],
   "note": ""
  },
  {
   "property": "C04",
   "status": "partial",
   "theorems": [
    "Slate.C04_any_cache_partial",
    "Slate.C04_write_twice",
    "Slate.C04_evicted_violated"
   ],
   "note": "Proved for every screen and whatever the cache of get_characters holds if the call has at most 128 different spans (the size of the cache), and for any number of spans if the cache is right. The code violates the full property: with 129 different spans on a screen that has scrolled, a wrong entry leaves the cache between the two calls and the second one changes a cell."
  },
  {
   "property": "C05",
   "status": "partial",
   "theorems": [
    "Slate.C05_placement_partial",
    "Slate.C05_out_of_bounds",
    "Slate.C05_write_then_draw",
    "Slate.C05_violated",
    "Slate.C05_corner_violated",
    "Slate.C05_later"
   ],
   "note": "The code violates the full property: an overflowing line can scroll. Proved when nothing scrolls; C05_corner_violated shows that every call excluded by the corner condition scrolls."
  },
  {
   "property": "C06",
   "status": "proved",
   "theorems": [
    "Slate.C06_shape"
   ],
   "note": ""
  },
  {
   "property": "C07",
   "status": "proved",
   "theorems": [
    "Slate.C07_exceptions",
    "Slate.C07_raises"
   ],
   "note": ""
  },
  {
   "property": "C08",
   "status": "proved",
   "theorems": [
    "Slate.C08_any_cache",
    "Slate.C08_bulk_eq_sequential"
   ],
   "note": ""
  },
  {
   "property": "C09",
   "status": "proved",
   "theorems": [
    "Slate.C09_clear",
    "Slate.C09_clear_then_draw"
   ],
   "note": ""
  },
  {
   "property": "C10",
   "status": "proved",
   "theorems": [
    "Slate.C10_resize"
   ],
   "note": ""
  },
  {
   "property": "C100",
   "status": "proved",
   "theorems": [
    "Slate.C100_stored",
    "Slate.C100_shown"
   ],
   "note": "The display part for histories that did not scroll (scrolled screens are not shown correctly by any draw, see C99)."
  },
  {
   "property": "C101",
   "status": "partial",
   "theorems": [
    "Slate.C101_narrow_partial",
    "Slate.C101_wide_violated"
   ],
   "note": "Holds for all histories without wide characters. Every wide character violates it: what follows it is shown one column too far right."
  },
  {
   "property": "C102",
   "status": "proved",
   "theorems": [
    "Slate.C102_text",
    "Slate.C102_decoder"
   ],
   "note": "Spells is unique (Spells.unique). What the decoder still keeps when getch returns is lost (C72_cut_short_violated)."
  },
  {
   "property": "C103",
   "status": "partial",
   "theorems": [
    "Slate.C103_cells_partial",
    "Slate.C103_flow_partial",
    "Slate.C103_scroll_partial",
    "Slate.C103_opaque",
    "Slate.C103_twice",
    "Slate.C103_hidden_violated"
   ],
   "note": "The whole content of every cell is given exactly by a declarative pile (Spec/Layers) without matrices. Not as stated: translucent backgrounds below the topmost opaque layer tint it too, for all such layers (C103_hidden_violated). Calls that scroll are covered by C103_scroll_partial, for texts without line breaks."
  },
  {
   "property": "C104",
   "status": "partial",
   "theorems": [
    "Slate.C104_single_byte_partial",
    "Slate.C104_latin1_partial",
    "Slate.C104_no_encoding_violated"
   ],
   "note": "Proved for all single-byte encodings. Fails without an encoding: the first byte is lost and TypeError is raised, on every stream (str += bytes)."
  },
  {
   "property": "C105",
   "status": "proved",
   "theorems": [
    "Slate.C105_at_most",
    "Slate.C105_string",
    "Slate.C105_readme"
   ],
   "note": ""
  },
  {
   "property": "C106",
   "status": "partial",
   "theorems": [
    "Slate.C106_bulk_partial",
    "Slate.C106_tints_partial",
    "Slate.C106_show_partial",
    "Slate.C106_tint_violated",
    "Slate.C106_cells_partial",
    "Slate.C106_draw_partial",
    "Slate.C106_single",
    "Slate.C106_single_partial",
    "Slate.attributed_items",
    "Slate.attributed_slices",
    "Slate.C106_scrolled_violated",
    "Slate.C106_scrolls_violated",
    "Slate.C106_corners_violated",
    "Slate.C106_singles_violated",
    "Slate.C106_resets_violated",
    "Slate.C106_corner_violated",
    "Slate.C106_single_violated",
    "Slate.C106_reset_violated"
   ],
   "note": "Proved for all texts of a bulk write, translucent or not, on screens that have not scrolled and writes that do not scroll, up to the colour of spaces over other spaces. Fails for those (tinted or not by whether a reset follows), on scrolled screens (every span is moved up by the offset again), at the end of the screen (another span scrolls) and for reset_after=False (last character loses its style)."
  },
  {
   "property": "C107",
   "status": "partial",
   "theorems": [
    "Slate.Resize.normalize_exact",
    "Slate.Resize.C107_stored",
    "Slate.Resize.C107_draw_partial",
    "Slate.Resize.C107_redraw_violated"
   ],
   "note": "The rounding is harmless up to 2^44 columns and rows, nothing raises and every cell is stored as claimed, and a draw() shows it. But the experiment draws with redraw=True: at every size, every block is shown in the default colours, and no later draw() changes that."
  },
  {
   "property": "C108",
   "status": "partial",
   "theorems": [
    "Slate.Readme.C108_demo_partial",
    "Slate.Readme.C108_readme_violated"
   ],
   "note": "Proved if the first writes are given the cursor (0, 0). As printed in the README, the first write raises TypeError on every terminal, because a write without a cursor does not work (C13)."
  },
  {
   "property": "C109",
   "status": "partial",
   "theorems": [
    "Slate.C109_dimensions",
    "Slate.C109_dimensions_partial",
    "Slate.C109_mixed_violated",
    "Slate.C109_isatty",
    "Slate.C109_isatty_closed",
    "Slate.C109_bell",
    "Slate.C109_cursor",
    "Slate.C109_cursor_kept"
   ],
   "note": "The code violates the full property: width and height are two queries, and the size may change in between. Proved if it does not, and C109_dimensions says exactly what is read otherwise; the rest is proved."
  },
  {
   "property": "C11",
   "status": "partial",
   "theorems": [
    "Slate.C11_resize_then_draw_partial",
    "Slate.C11_exact_partial",
    "Slate.C11_violated"
   ],
   "note": "The code violates the full property: a kept cell is queued with the fill character. C11_exact_partial says what is shown after any history with resizes: the stored content of the cells changed since the last one, its fill character everywhere else."
  },
  {
   "property": "C110",
   "status": "partial",
   "theorems": [
    "Slate.Tags.C110_styles_partial",
    "Slate.Tags.C110_printed_partial",
    "Slate.Tags.C110_text",
    "Slate.Tags.C110_colours_violated",
    "Slate.Tags.C110_adjacent_violated",
    "Slate.Tags.C110_text_violated",
    "Slate.Tags.C110_exact_partial",
    "Slate.Tags.C110_unknown_partial",
    "Slate.Tags.C110_brackets_violated",
    "Slate.Tags.C110_bracket_violated"
   ],
   "note": "Proved for documents whose tags are styles or unknown; C110_exact_partial says what is read if they are in several pairs of brackets. The last sentence is proved for all strings. The code violates the rest: every text with a colour among its tags makes the generator raise (colours are passed to Span as strings), tags in two pairs of brackets have no effect, and text before a closing bracket is dropped (both for all tags and texts)."
  },
  {
   "property": "C111",
   "status": "partial",
   "theorems": [
    "Slate.C111_two_partial",
    "Slate.C111_many_partial",
    "Slate.C111_scroll_violated",
    "Slate.C111_below_violated",
    "Slate.C111_drawn"
   ],
   "note": "Two calls in both orders and joined, and all permutations of any number of lines. Which cells a line covers is said by layersAt of Spec/Layers. Fails for calls that scroll: a text that is scrolled by another one of the same call is overwritten. C08 says the same of overlapping opaque texts, up to Python equality."
  },
  {
   "property": "C112",
   "status": "partial",
   "theorems": [
    "Slate.Wire.C112_exact",
    "Slate.Wire.C112_left",
    "Slate.Wire.C112_nothing_lost_partial",
    "Slate.Wire.C112_typed_ahead_violated",
    "Slate.Wire.C112_alarm_violated",
    "Slate.Wire.C112_gap_violated"
   ],
   "note": "C112_exact says for all interleavings which characters are returned: those that arrive while a call listens that no alarm cuts off. C112_left says that only setcbreak discards what was not read. Nothing is lost if everything is typed while a call listens and no alarm strikes a call that has heard something. A key that was read when the time of getch_timeout ran out is lost. Everything typed between two calls is lost, because tty.setcbreak discards what waits (TCSAFLUSH is its default)."
  },
  {
   "property": "C113",
   "status": "partial",
   "theorems": [
    "Slate.Wire.C113_exact",
    "Slate.Wire.C113_answer_partial",
    "Slate.Wire.C113_not_shown",
    "Slate.Wire.C113_wait_violated",
    "Slate.Wire.C113_key_violated",
    "Slate.Wire.C113_cut_violated",
    "Slate.Wire.C113_shown_violated"
   ],
   "note": "Proved in every execution in which the answer comes in one piece while the reader listens. If the terminal answers before the reading thread has set the mode of the tty, the answer is discarded and the query waits until a key is pressed, which is then taken for the answer. An answer in two pieces is cut. Nothing is shown if the echo is off, as it is when colours are queried; the other queries leave it on."
  },
  {
   "property": "C114",
   "status": "proved",
   "theorems": [
    "Slate.C114_runs",
    "Slate.C114_printed",
    "Slate.C114_asked",
    "Slate.C114_words"
   ],
   "note": "With argparse of Python 3.11. The only arguments refused before anything else is done are those that begin with --=, which could be --help or --version."
  },
  {
   "property": "C115",
   "status": "partial",
   "theorems": [
    "Slate.C115_added",
    "Slate.C115_cleared",
    "Slate.C115_unchanged",
    "Slate.C115_ends_partial",
    "Slate.C115_endless_violated",
    "Slate.C115_replaced_violated"
   ],
   "note": "The code violates the full property: an emission whose listeners keep adding listeners never ends, and a listener added after a clear is not called in the same emission."
  },
  {
   "property": "C116",
   "status": "proved",
   "theorems": [
    "Slate.C116_read",
    "Slate.C116_waits",
    "Slate.C116_text",
    "Slate.C116_pairs",
    "Slate.C116_utf8",
    "Slate.C116_utf8_sends",
    "Slate.C116_table"
   ],
   "note": "The decoder is a parameter; UTF-8, single-byte encodings and encodings with characters of one and two bytes are shown to be instances. The tables of the encodings are not part of the model."
  },
  {
   "property": "C117",
   "status": "partial",
   "theorems": [
    "Slate.C117_cells_partial",
    "Slate.C103_scroll_partial",
    "Slate.C117_log_partial",
    "Slate.C117_log_violated"
   ],
   "note": "The code violates the property for every log longer than the screen: the rows of the screen move up when a line scrolls, but not the lines of the same call that were written before, so the first lines stay and all later ones are piled up in the last row. What is left in every cell is given exactly for all calls without line breaks in their texts (C103_scroll_partial), and as the last text on it if the lines are single opaque spans."
  },
  {
   "property": "C118",
   "status": "partial",
   "theorems": [
    "Slate.C118_exact",
    "Slate.C118_iff",
    "Slate.C118_write_partial",
    "Slate.C118_write_violated",
    "Slate.C118_raises_violated"
   ],
   "note": "The code violates the property for every list except those of at most one span without styles and colours. The reset sequence after a span is not known to the reader: at the end of the string it is read as four characters of text, and before any other span it makes reading raise ValueError, so that Terminal.write writes nothing. Plain spans before a styled one are dropped. What is read is given exactly for all lists."
  },
  {
   "property": "C119",
   "status": "partial",
   "theorems": [
    "Slate.C119_calm_partial",
    "Slate.C119_scroll_partial",
    "Slate.C119_redraw",
    "Slate.C119_drawn_violated",
    "Slate.C119_every_violated",
    "Slate.C119_cells_violated",
    "Slate.C119_forgotten_violated"
   ],
   "note": "The code violates the property: scrolling changes the lists in the cache of get_characters, which all screens share. Another screen that scrolls with an equal span adds line breaks to what this one draws, or, if the text has a line break, changes its cells; and what a screen draws after it has scrolled depends on how much was written to others. Proved exactly, including what is still to be drawn, for a screen that does not scroll while the others do not scroll with its spans; and, whatever scrolls and whatever is called on the others, for texts without line breaks and without invisible spaces on translucent backgrounds: size, cells, cursor, window and full redraws are the same, and the strings to be drawn up to line breaks at their ends."
  },
  {
   "property": "C12",
   "status": "partial",
   "theorems": [
    "Slate.C12_inside_partial",
    "Slate.C12_draw_stays_inside_partial",
    "Slate.C12_violated",
    "Slate.C12_clamped_violated",
    "Slate.C12_exact_partial",
    "Slate.C12_fresh_violated"
   ],
   "note": "The code violates the full property: stale changes survive a shrinking resize. C12_clamped_violated: a terminal with margins shows them in the rows that are left. C12_exact_partial says exactly what a draw after a resize addresses, C12_fresh_violated that every screen made smaller before its first draw violates it."
  },
  {
   "property": "C120",
   "status": "proved",
   "theorems": [
    "Slate.C120_cells",
    "Slate.C120_shown"
   ],
   "note": "Whole cells, not only characters; and after a last draw the two terminals show the same there, at any two origins and whatever was on them. Rows may be negative or above the screen; columns may not."
  },
  {
   "property": "C121",
   "status": "partial",
   "theorems": [
    "Slate.C121_windows_partial",
    "Slate.C121_order_partial",
    "Slate.C121_every_violated",
    "Slate.C121_violated"
   ],
   "note": "Proved while no screen scrolls; then the order in which the screens are used has no influence at all (C121_order_partial). The code violates the full property: after one screen has scrolled, spans equal to those that scrolled are drawn on all screens with line breaks, which move what is drawn next into the area of another screen."
  },
  {
   "property": "C122",
   "status": "partial",
   "theorems": [
    "Slate.C122_cleared_partial",
    "Slate.C122_hidden_violated"
   ],
   "note": "Proved, while no screen scrolls, for a screen that was cleared since its previous draw. The code violates the rest: a draw sends only changed cells, so every screen that has been drawn stays covered by what others draw over it, however often it is drawn again. (A redraw sends all cells, but without their colours, C15.)"
  },
  {
   "property": "C123",
   "status": "proved",
   "theorems": [
    "Slate.C123_cells",
    "Slate.C123_history",
    "Slate.C123_shown",
    "Slate.C123_shown_spaces"
   ],
   "note": "C123_cells and C123_history are about arbitrary calls with arbitrary texts, fill strings and places, scrolling and raising ones included, each under its own pair of colour environments; the colours of C123_history are made from channels, hex strings or codes of a terminal. C123_shown is about every pair of terminals and meanings of colours."
  },
  {
   "property": "C124",
   "status": "partial",
   "theorems": [
    "Slate.C124_layout_partial",
    "Slate.C124_break_violated",
    "Slate.C124_every_break_violated"
   ],
   "note": "Proved for all histories of calls with printable texts, scrolling, resizing and raising ones included; translucent backgrounds may meet translucent ones only, as they let the text below show through their spaces. The code violates it for texts with line breaks: in a styled span a line break takes a cell (C88); so every text with a second line, and every style, violates it (C124_every_break_violated)."
  },
  {
   "property": "C125",
   "status": "partial",
   "theorems": [
    "Slate.C125_counts_partial",
    "Slate.C125_leak_violated"
   ],
   "note": "Proved for all histories, scrolling and raising ones included: the pending changes are at most one per place of the largest size the screen had, and the cache holds at most 128 lists. The lists themselves are not bounded: C125_leak_violated shows for every size, every text that is not empty and every n that writing that text n times below the window leaves a cached list n characters longer than the text (screen.py:207 extends the list that lru_cache keeps). By C18_lengthened_partial one character per write is the most that can be lost. Lengths count the entries and characters, not bytes of the python objects."
  },
  {
   "property": "C13",
   "status": "partial",
   "theorems": [
    "Slate.C13_violated",
    "Slate.C13_violated_example",
    "Slate.C13_unused_violated"
   ],
   "note": "The code violates the property: every write without a cursor raises TypeError, and the cursor has no influence on any history of calls. Only the negation is proved."
  },
  {
   "property": "C14",
   "status": "partial",
   "theorems": [
    "Slate.C14_exact_partial",
    "Slate.C14_force_ignored",
    "Slate.C14_changed_cells_partial",
    "Slate.C14_violated"
   ],
   "note": "The code violates the full property: force_overwrite has no effect. Proved for cells whose content changes."
  },
  {
   "property": "C15",
   "status": "partial",
   "theorems": [
    "Slate.C15_redraw_partial",
    "Slate.C15_exact_partial",
    "Slate.C15_violated",
    "Slate.C15_violated_style",
    "Slate.C15_colourless_violated"
   ],
   "note": "The code violates the full property: a redraw drops colours and leaks styles. Characters proved for all screens, the full look for uncoloured ones. C15_exact_partial says what is shown of every screen: the styles since the last reset, and no colours. So every coloured cell is redrawn wrongly (C15_colourless_violated)."
  },
  {
   "property": "C16",
   "status": "partial",
   "theorems": [
    "Slate.C16_offset_monotone",
    "Slate.C16_scroll_partial",
    "Slate.C16_window_partial",
    "Slate.C16_log_partial",
    "Slate.C16_drift_partial",
    "Slate.C16_violated_spans",
    "Slate.C16_lines_violated",
    "Slate.C16_lost_violated",
    "Slate.C16_violated_jump",
    "Slate.C16_jump_violated"
   ],
   "note": "The code violates the full property for lines of several spans, on every scrolled screen and whenever they scroll (only the last span is then written), and for every jump of more than one row. For a line that fits into a row of the window it is proved where exactly each span goes: span k of the line is stored k times the offset above its row."
  },
  {
   "property": "C17",
   "status": "partial",
   "theorems": [
    "Slate.C17_clear_origin_partial",
    "Slate.C17_exact_partial",
    "Slate.C17_violated",
    "Slate.C17_violated_example"
   ],
   "note": "The code violates the full property on scrolled screens: clear keeps the scrollback offset. C17_exact_partial: after a clear the cell in row r is addressed by r plus the old offset."
  },
  {
   "property": "C18",
   "status": "partial",
   "theorems": [
    "Slate.C18_get_characters_partial",
    "Slate.C18_lengthened_partial",
    "Slate.C18_violated",
    "Slate.C18_scroll_violated"
   ],
   "note": "The code violates the full property: write_bulk mutates the cached list. Proved for histories that do not scroll; in all histories the list is right up to line breaks at its end, at most one for each time the span was written (C18_lengthened_partial). Every write of a span below the window adds one (C18_scroll_violated)."
  },
  {
   "property": "C19",
   "status": "partial",
   "theorems": [
    "Slate.C19_last_opaque_wins_partial",
    "Slate.C19_scroll_partial",
    "Slate.C19_tints_violated",
    "Slate.C19_violated",
    "Slate.C103_hidden_violated"
   ],
   "note": "The code violates the full property: an opaque write does not clear the alpha stack, so a strong tint hides every opaque background written over it (C19_tints_violated, all histories and calls). C19_scroll_partial: all histories and calls without line breaks, with no tint above the lowest text."
  },
  {
   "property": "C20",
   "status": "proved",
   "theorems": [
    "Slate.C20_blend_never_raises",
    "Slate.C20_stored_colors"
   ],
   "note": ""
  },
  {
   "property": "C21",
   "status": "partial",
   "theorems": [
    "Slate.C21_translucent_foreground_partial",
    "Slate.C21_invisible_violated",
    "Slate.C21_violated"
   ],
   "note": "The code violates the full property: over an opaque background the stored foreground is the background."
  },
  {
   "property": "C22",
   "status": "proved",
   "theorems": [
    "Slate.C22_render_order"
   ],
   "note": ""
  },
  {
   "property": "C23",
   "status": "partial",
   "theorems": [
    "Slate.C23_partial",
    "Slate.C23_violated"
   ],
   "note": "The code violates the full property: a failure between rendering and sending loses the pending changes."
  },
  {
   "property": "C24",
   "status": "partial",
   "theorems": [
    "Slate.C24_visual_width_partial",
    "Slate.C24_newline_hyperlink_violated",
    "Slate.C24_newline_violated",
    "Slate.C24_odd_color_violated",
    "Slate.C24_code_violated"
   ],
   "note": "The code violates the full property for hyperlinks with a newline and for colours whose stored code is not one."
  },
  {
   "property": "C25",
   "status": "partial",
   "theorems": [
    "Slate.C25_parse_rendered_partial",
    "Slate.C25_exact",
    "Slate.C25_reset_violated",
    "Slate.C25_no_reset_violated",
    "Slate.C25_alpha_violated"
   ],
   "note": "The code violates the full property without reset_after and for translucent colours; C25_exact says for which spans exactly it holds."
  },
  {
   "property": "C26",
   "status": "partial",
   "theorems": [
    "Slate.C26_characters_join_partial",
    "Slate.C26_single_character_violated",
    "Slate.C26_single_character_exact"
   ],
   "note": "The code violates the full property for one-character spans with reset_after; their exact output is proved."
  },
  {
   "property": "C27",
   "status": "partial",
   "theorems": [
    "Slate.C27_cells_self_contained_partial",
    "Slate.C27_direct_colors",
    "Slate.C27_odd_color_violated",
    "Slate.C27_bare_violated"
   ],
   "note": "Fails only for colours whose stored code is not a colour code."
  },
  {
   "property": "C28",
   "status": "proved",
   "theorems": [
    "Slate.C28_slice",
    "Slate.C28_item",
    "Slate.C28_split",
    "Slate.C28_split_empty"
   ],
   "note": ""
  },
  {
   "property": "C29",
   "status": "partial",
   "theorems": [
    "Slate.C29_mutate_partial",
    "Slate.C29_reset_after_violated"
   ],
   "note": "The code violates the full property: mutate drops reset_after."
  },
  {
   "property": "C30",
   "status": "partial",
   "theorems": [
    "Slate.C30_no_text_lost_partial",
    "Slate.C30_plain_line",
    "Slate.C30_leading_text_violated",
    "Slate.C30_trailing_reset_violated"
   ],
   "note": "The code violates the full property: text before the first sequence is lost."
  },
  {
   "property": "C31",
   "status": "partial",
   "theorems": [
    "Slate.C31_tracks_terminal_partial",
    "Slate.C31_blink_off_violated",
    "Slate.C31_conceal_strike_off_violated",
    "Slate.C31_reset_violated",
    "Slate.C31_exact_partial",
    "Slate.C31_stops_partial"
   ],
   "note": "The code violates the full property for the codes 0, 25, 28 and 29. Proved for all lines over the others. C31_exact_partial: with 25 only fast blinking differs, and exactly while the last 6 has a 25 after it. C31_stops_partial: at the first sequence with another number reading stops, with ValueError if a number has no meaning (0 is one) and TypeError otherwise (26, 28, 29, 54)."
  },
  {
   "property": "C32",
   "status": "partial",
   "theorems": [
    "Slate.C32_exceptions_partial",
    "Slate.C32_where_partial",
    "Slate.C32_index_violated",
    "Slate.C31_stops_partial",
    "Slate.C32_type_error_violated",
    "Slate.C32_index_error_violated"
   ],
   "note": "The code violates the full property: TypeError and IndexError occur; proved which sequences of a line are to blame for every string (C32_where_partial), that every true-colour code with an alpha value for its third channel raises IndexError (C32_index_violated), and for lines of sequences with text where reading stops and with which exception (C31_stops_partial)."
  },
  {
   "property": "C33",
   "status": "partial",
   "theorems": [
    "Slate.C33_group_partial",
    "Slate.C33_exact_partial",
    "Slate.C33_color_lost_violated",
    "Slate.C33_reachable_violated"
   ],
   "note": "The code violates the full property: a coloured cell equal in text to an uncoloured group start loses its colour. C33_exact_partial: this is exactly when looks are lost, namely when a run of uncoloured cells of one style (other than a plain run at the start of the row) is followed by a coloured cell with the string of the first of the run."
  },
  {
   "property": "C34",
   "status": "partial",
   "theorems": [
    "Slate.C34_unscrolled_partial",
    "Slate.C34_rows_partial",
    "Slate.C34_exact_partial",
    "Slate.C34_export_violated",
    "Slate.C34_scrolled_violated"
   ],
   "note": "The code violates the full property after scrolling (empty cells). Proved for unscrolled histories and for all rows without empty cells. C34_exact_partial: without resizes a row raises exactly if it begins with an empty cell or has two side by side. So every line written below the window that leaves the first or the last two cells free breaks the export (C34_export_violated)."
  },
  {
   "property": "C35",
   "status": "proved",
   "theorems": [
    "Slate.C35_svg_text_escaped"
   ],
   "note": ""
  },
  {
   "property": "C36",
   "status": "partial",
   "theorems": [
    "Slate.C36_printed_span_partial",
    "Slate.C36_odd_color_violated",
    "Slate.C36_bare_violated"
   ],
   "note": "Fails only for colours whose stored code is not a colour code."
  },
  {
   "property": "C37",
   "status": "proved",
   "theorems": [
    "Slate.C37_six_digits",
    "Slate.C37_eight_digits",
    "Slate.C37_round_trip"
   ],
   "note": ""
  },
  {
   "property": "C38",
   "status": "partial",
   "theorems": [
    "Slate.C38_make",
    "Slate.C38_blend_partial",
    "Slate.C38_blend_exact_partial",
    "Slate.C38_blend_violated",
    "Slate.C38_roles",
    "Slate.C38_parsers",
    "Slate.C38_complement",
    "Slate.C49_valid_float",
    "Slate.C45_contrast_partial"
   ],
   "note": "The code violates the full property: blending by a huge amount raises OverflowError; C38_blend_exact_partial says exactly when."
  },
  {
   "property": "C39",
   "status": "proved",
   "theorems": [
    "Slate.C39_between",
    "Slate.C39_endpoints",
    "Slate.C39_monotone",
    "Slate.C39_clamped",
    "Slate.C39_result"
   ],
   "note": "Binary64 rounding is modelled."
  },
  {
   "property": "C40",
   "status": "proved",
   "theorems": [
    "Slate.C40_lighten",
    "Slate.C40_darken",
    "Slate.C40_zero",
    "Slate.C40_saturate_product",
    "Slate.C40_saturate",
    "Slate.C40_returns",
    "Slate.C40_result"
   ],
   "note": "Binary64 rounding is modelled."
  },
  {
   "property": "C41",
   "status": "proved",
   "theorems": [
    "Slate.C41_round_trip",
    "Slate.C41_injective"
   ],
   "note": ""
  },
  {
   "property": "C42",
   "status": "partial",
   "theorems": [
    "Slate.C42_nearest_partial",
    "Slate.C42_palette_fixed",
    "Slate.C42_malformed_violated",
    "Slate.C42_bare_violated"
   ],
   "note": "Proved for every colour not made by from_ansi from a malformed code; those violate it."
  },
  {
   "property": "C43",
   "status": "partial",
   "theorems": [
    "Slate.C43_cube_partial",
    "Slate.C43_exact",
    "Slate.C43_closest_violated"
   ],
   "note": "The code violates the full property: the emitted index need not be the closest one; the exact set is proved."
  },
  {
   "property": "C44",
   "status": "partial",
   "theorems": [
    "Slate.C44_grey_partial",
    "Slate.C44_monotone_partial",
    "Slate.C44_violated"
   ],
   "note": "The code violates the full property for colours made by from_ansi. Proved for the others, for every pow function accurate to 2^-40."
  },
  {
   "property": "C45",
   "status": "partial",
   "theorems": [
    "Slate.C45_contrast_partial",
    "Slate.C45_exact_partial",
    "Slate.C45_range_violated",
    "Slate.C45_violated"
   ],
   "note": "The code violates the full property. Proved: 3.4 always, and 4.5 exactly for luminances up to 0.164 and from 0.2506 on."
  },
  {
   "property": "C46",
   "status": "partial",
   "theorems": [
    "Slate.C46_verbatim_partial",
    "Slate.C46_role",
    "Slate.C46_suffix",
    "Slate.C46_suffix_violated",
    "Slate.C46_converted_violated",
    "Slate.C46_alpha_violated",
    "Slate.C46_hash_violated"
   ],
   "note": "The code violates the full property for true colour codes with an alpha suffix and for codes starting with #."
  },
  {
   "property": "C47",
   "status": "partial",
   "theorems": [
    "Slate.C47_first_use_partial",
    "Slate.C47_stale",
    "Slate.C47_constant_space",
    "Slate.C47_violated"
   ],
   "note": "The code violates the full property: a colour keeps the code of its first use."
  },
  {
   "property": "C48",
   "status": "partial",
   "theorems": [
    "Slate.C48_written_is_shown_partial",
    "Slate.C48_equal_violated",
    "Slate.C48_colours_violated",
    "Slate.C48_role_violated",
    "Slate.C48_code_violated"
   ],
   "note": "The code violates the full property: equality of colours ignores role and code."
  },
  {
   "property": "C49",
   "status": "proved",
   "theorems": [
    "Slate.C49_valid",
    "Slate.C49_grey",
    "Slate.C49_integer",
    "Slate.C49_periodic",
    "Slate.C49_valid_float",
    "Slate.C49_grey_float",
    "Slate.C49_integer_float"
   ],
   "note": "In exact arithmetic, as stated; the _float theorems are about binary64."
  },
  {
   "property": "C50",
   "status": "partial",
   "theorems": [
    "Slate.C50_order",
    "Slate.C50_names",
    "Slate.C50_unknown",
    "Slate.C50_less_violated"
   ],
   "note": "The code violates the full property: < and <= against a name raise TypeError."
  },
  {
   "property": "C51",
   "status": "proved",
   "theorems": [
    "Slate.C51_slate",
    "Slate.C51_no_color",
    "Slate.C51_colorterm",
    "Slate.C51_term",
    "Slate.C51_forced",
    "Slate.C51_not_forced"
   ],
   "note": ""
  },
  {
   "property": "C52",
   "status": "proved",
   "theorems": [
    "Slate.C52_decoded",
    "Slate.C52_injective"
   ],
   "note": ""
  },
  {
   "property": "C53",
   "status": "partial",
   "theorems": [
    "Slate.C53_only_reports_partial",
    "Slate.C53_exact",
    "Slate.C53_keys",
    "Slate.C53_key_error_violated",
    "Slate.C53_index_error_violated",
    "Slate.C53_not_mouse_violated"
   ],
   "note": "The code violates the full property: KeyError, IndexError and false events for other codes with two semicolons; C53_exact says for which codes exactly."
  },
  {
   "property": "C54",
   "status": "partial",
   "theorems": [
    "Slate.C54_table",
    "Slate.C54_other_partial",
    "Slate.C54_exceptions",
    "Slate.C54_mouse",
    "Slate.C54_ctrl",
    "Slate.C54_interrupt",
    "Slate.C54_raw",
    "Slate.C54_violated",
    "Slate.C54_lost_violated"
   ],
   "note": "The code violates the full property for other sequences with two semicolons, and what was read before a mouse report is lost."
  },
  {
   "property": "C55",
   "status": "proved",
   "theorems": [
    "Slate.C55_eq",
    "Slate.C55_iter_str",
    "Slate.C55_getch_str"
   ],
   "note": ""
  },
  {
   "property": "C56",
   "status": "partial",
   "theorems": [
    "Slate.C56_exact",
    "Slate.C56_spaced_partial",
    "Slate.C56_overwritten",
    "Slate.C56_violated"
   ],
   "note": "The code violates the full property: feeding while a text waits overwrites it. C56_exact says what is read after any interleaving."
  },
  {
   "property": "C57",
   "status": "partial",
   "theorems": [
    "Slate.C57_no_answer_partial",
    "Slate.C57_answer_violated",
    "Slate.C57_violated"
   ],
   "note": "The code violates the full property: every answer is taken for a mouse event."
  },
  {
   "property": "C58",
   "status": "proved",
   "theorems": [
    "Slate.C58_reply",
    "Slate.C58_other",
    "Slate.C58_always_valid"
   ],
   "note": ""
  },
  {
   "property": "C59",
   "status": "partial",
   "theorems": [
    "Slate.C59_getch_restores_partial",
    "Slate.C59_getch_timeout_partial",
    "Slate.C59_violated",
    "Slate.C59_finally_violated"
   ],
   "note": "The code violates the full property when an exception arrives between the change of the attributes and the try block, or in the finally block."
  },
  {
   "property": "C60",
   "status": "partial",
   "theorems": [
    "Slate.C60_timeout_partial",
    "Slate.C60_violated"
   ],
   "note": "The code violates the full property: an alarm that strikes in the finally block, before signal.alarm(0), escapes although the body has finished, whatever the body is."
  },
  {
   "property": "C61",
   "status": "partial",
   "theorems": [
    "Slate.C61_modes_undone",
    "Slate.C61_block_undone",
    "Slate.C61_in_force_partial",
    "Slate.C61_draws_are_tame",
    "Slate.C61_all_draws_are_tame",
    "Slate.C61_nested_violated",
    "Slate.C61_again_violated",
    "Slate.C61_batch_violated"
   ],
   "note": "The code violates the full property for nested blocks of the same kind and for batches."
  },
  {
   "property": "C62",
   "status": "partial",
   "theorems": [
    "Slate.C62_title_restored_partial",
    "Slate.C62_one_session",
    "Slate.C62_second_session_violated",
    "Slate.C62_empty_violated",
    "Slate.C62_foreign_violated",
    "Slate.C62_exact",
    "Slate.C62_sessions_violated",
    "Slate.C62_taken_violated"
   ],
   "note": "The code violates the full property in a second session and with empty titles. C62_exact says what the title is after any history; every second session leaves its last title (C62_sessions_violated)."
  },
  {
   "property": "C63",
   "status": "partial",
   "theorems": [
    "Slate.C63_history_partial",
    "Slate.C63_raising",
    "Slate.C63_raising_violated"
   ],
   "note": "The code violates the full property when a listener raises."
  },
  {
   "property": "C64",
   "status": "partial",
   "theorems": [
    "Slate.C64_argument_partial",
    "Slate.C64_violated"
   ],
   "note": "The code violates the property: every such listener ends in RecursionError."
  },
  {
   "property": "C65",
   "status": "partial",
   "theorems": [
    "Slate.C65_call_partial",
    "Slate.C65_once_in_order",
    "Slate.C65_raise",
    "Slate.C65_clear",
    "Slate.C65_append",
    "Slate.C65_stops_partial",
    "Slate.C65_cases",
    "Slate.C65_violated"
   ],
   "note": "The code violates the full property: a true value that is neither bool nor int raises TypeError. C65_stops_partial says exactly what happens then, and C65_cases that there is no third case."
  },
  {
   "property": "C66",
   "status": "partial",
   "theorems": [
    "Slate.C66_write",
    "Slate.C66_write_no_cursor",
    "Slate.C66_bulk_partial",
    "Slate.C66_bulk_violated",
    "Slate.C66_bulk_never_ok"
   ],
   "note": "The code violates the full property: write_bulk raises AttributeError for strings."
  },
  {
   "property": "C67",
   "status": "partial",
   "theorems": [
    "Slate.C67_export_partial",
    "Slate.C67_reachable_partial",
    "Slate.C67_cells_partial",
    "Slate.C67_backdrop_violated"
   ],
   "note": "Placement, colours and text are proved for every screen whose cells have valid colours, and for every reachable one, when the export does not raise (C34); positions up to float rounding and two decimals. The last clause is false: the rectangle behind the screen has fill '##RRGGBB' for every colour."
  },
  {
   "property": "C68",
   "status": "proved",
   "theorems": [
    "Slate.C68_stylesheet"
   ],
   "note": "For every screen with valid colours whose export does not raise; the template must give different classes to different numbers."
  },
  {
   "property": "C69",
   "status": "partial",
   "theorems": [
    "Slate.C69_styles_partial",
    "Slate.C69_strike_violated"
   ],
   "note": "True for bold, dim, italic and underline. False for strike and conceal: for every span they change nothing in the export (STYLE_TO_CSS has the key 'strikethrough', the attribute is called 'strike')."
  },
  {
   "property": "C70",
   "status": "partial",
   "theorems": [
    "Slate.C70_inline_violated"
   ],
   "note": "False for every span: the attribute is called 'styles'. What holds: the declarations are in that attribute."
  },
  {
   "property": "C71",
   "status": "proved",
   "theorems": [
    "Slate.C71_characters",
    "Slate.C71_whole_text"
   ],
   "note": "For all texts and all arrival times of their bytes; UTF-8 by Lean's own encoder."
  },
  {
   "property": "C72",
   "status": "partial",
   "theorems": [
    "Slate.C72_stray_partial",
    "Slate.C72_cut_short_violated",
    "Slate.C72_surrogate_violated"
   ],
   "note": "Fails: after a lead byte that is not continued, all ASCII characters of the read are returned as the repr of their byte, because the decoder keeps the lead byte. After the first two bytes of a surrogate nothing at all is decoded any more. Holds for bytes that cannot begin a character."
  },
  {
   "property": "C73",
   "status": "partial",
   "theorems": [
    "Slate.C73_end_violated",
    "Slate.C73_character_partial"
   ],
   "note": "Fails: at the end of the input the loop of _read never ends. It ends with the character if one is there."
  },
  {
   "property": "C74",
   "status": "partial",
   "theorems": [
    "Slate.C74_keys_partial",
    "Slate.C74_f11_f12_violated",
    "Slate.C74_text_partial",
    "Slate.C74_not_ascii_violated",
    "Slate.C74_exact"
   ],
   "note": "C74_exact says what is returned for any bytes. Fails: F11, F12, every byte above 127 except a leading 0xE0, and two arrow keys waiting together raise UnicodeDecodeError. Holds for the other named keys and for ASCII text."
  },
  {
   "property": "C75",
   "status": "proved",
   "theorems": [
    "Slate.C75_supported_iff",
    "Slate.C75_no_answer"
   ],
   "note": "Exact characterisation for all replies."
  },
  {
   "property": "C76",
   "status": "proved",
   "theorems": [
    "Slate.C76_lightness"
   ],
   "note": "All colours and all amounts, in binary64 arithmetic."
  },
  {
   "property": "C77",
   "status": "partial",
   "theorems": [
    "Slate.C77_mirror_partial",
    "Slate.C77_red_violated",
    "Slate.C77_grey",
    "Slate.C77_blend_complement"
   ],
   "note": "Fails: the complement of every colour with r > g = b (hue 0) is a black foreground. Exact for all other colours, in binary64; the complements of greys are black or white foregrounds."
  },
  {
   "property": "C78",
   "status": "partial",
   "theorems": [
    "Slate.C78_triadic",
    "Slate.C78_analogous",
    "Slate.C78_tetradic_partial",
    "Slate.C78_tetradic_violated"
   ],
   "note": "Fails for the tetradic group of colours with r > g = b, whose third member is a black foreground. Exact for the others, in binary64."
  },
  {
   "property": "C79",
   "status": "partial",
   "theorems": [
    "Slate.C79_role",
    "Slate.C79_code",
    "Slate.C79_alpha_partial",
    "Slate.C79_alpha_violated"
   ],
   "note": "Fails: the alpha argument of as_background is ignored if it is 0 or if the colour has the role already. The rest is proved."
  },
  {
   "property": "C80",
   "status": "partial",
   "theorems": [
    "Slate.C80_name_partial",
    "Slate.C80_alpha_partial",
    "Slate.C80_unknown",
    "Slate.C80_violated"
   ],
   "note": "Fails for 'rebeccapurple', which is missing; holds for the other 147 names."
  },
  {
   "property": "C81",
   "status": "partial",
   "theorems": [
    "Slate.C81_eight_bit",
    "Slate.C81_index_range",
    "Slate.C81_standard",
    "Slate.C81_bare_partial",
    "Slate.C81_bare_violated"
   ],
   "note": "Fails for the bare index 4, which becomes a background. The rest is proved."
  },
  {
   "property": "C82",
   "status": "partial",
   "theorems": [
    "Slate.C82_attribute_partial",
    "Slate.C82_color_partial",
    "Slate.C82_description",
    "Slate.C82_look",
    "Slate.C82_reset_violated"
   ],
   "note": "Fails for reset_after, which every method sets to true. The rest is proved."
  },
  {
   "property": "C83",
   "status": "partial",
   "theorems": [
    "Slate.C83_color_equivalence",
    "Slate.C83_span_equivalence",
    "Slate.C83_equal_spans",
    "Slate.C83_hash_partial",
    "Slate.C83_color_hash_violated",
    "Slate.C83_span_hash_violated",
    "Slate.C83_span_hashes_violated"
   ],
   "note": "Fails for hashes: a frozen dataclass hashes the role and the constructor, which == ignores. The rest is proved."
  },
  {
   "property": "C84",
   "status": "proved",
   "theorems": [
    "Slate.C84_contains"
   ],
   "note": ""
  },
  {
   "property": "C85",
   "status": "proved",
   "theorems": [
    "Slate.C85_fits",
    "Slate.C85_rows",
    "Slate.C85_bar",
    "Slate.C85_styles"
   ],
   "note": "Values of the variables are printable, the colours valid; the cursor starts in column 1."
  },
  {
   "property": "C86",
   "status": "partial",
   "theorems": [
    "Slate.C86_named_partial",
    "Slate.C86_plain",
    "Slate.C86_home_end_violated",
    "Slate.C86_arrows",
    "Slate.C86_unique",
    "Slate.C86_typed"
   ],
   "note": "The code violates the full property: home is named end and end is named home. Proved for all other keys."
  },
  {
   "property": "C87",
   "status": "partial",
   "theorems": [
    "Slate.C87_exceptions_partial",
    "Slate.C87_from_ansi",
    "Slate.C87_color",
    "Slate.C87_two_channels_violated",
    "Slate.C87_dots_violated",
    "Slate.C87_lenient_violated",
    "Slate.C87_ignored_violated",
    "Slate.C87_hex_violated",
    "Slate.C87_tail_violated",
    "Slate.C87_digits_violated"
   ],
   "note": "The code violates the full property: IndexError for some (C87_color says exactly which), others are accepted."
  },
  {
   "property": "C88",
   "status": "partial",
   "theorems": [
    "Slate.C88_lines_partial",
    "Slate.C88_no_scroll",
    "Slate.C88_column_violated",
    "Slate.C88_styled_violated",
    "Slate.C88_draw_violated",
    "Slate.C88_exact_partial",
    "Slate.C88_staircase_violated",
    "Slate.C88_no_break_violated"
   ],
   "note": "Proved: where every character of a text with line breaks in unstyled spans is stored, and that nothing else changes; C88_exact_partial says where the characters of spans of any style go. C88_staircase_violated and C88_no_break_violated hold for all texts with two lines. Violated: the column is not reset, so that lines form a staircase; a line break in a span with a style is stored in a cell, the text goes on in the same row, and drawing sends a bare line break that displaces the rest."
  },
  {
   "property": "C89",
   "status": "partial",
   "theorems": [
    "Slate.C89_color",
    "Slate.C89_string",
    "Slate.C89_span_partial",
    "Slate.C89_exact_partial",
    "Slate.C89_same_span",
    "Slate.C89_background_violated",
    "Slate.C89_reset_violated",
    "Slate.C89_syntax_violated"
   ],
   "note": "Proved for colours (equality ignores the role), strings, and spans that reset, up to the role of their colours. Violated: background colours come back as foreground, reset_after=False is lost, and a span without a set flag gives a syntax error if it has a colour or a link. C89_exact_partial says what the text of any span stands for."
  },
  {
   "property": "C90",
   "status": "partial",
   "theorems": [
    "Slate.C90_raw",
    "Slate.C90_named_partial",
    "Slate.C90_size",
    "Slate.C90_unknown_violated",
    "Slate.C90_f13_violated"
   ],
   "note": "Proved for --raw, for all keys of the table and for all single characters. Violated for other texts, which are sent to the terminal as they are."
  },
  {
   "property": "C91",
   "status": "partial",
   "theorems": [
    "Slate.C91_session_partial",
    "Slate.C91_mark",
    "Slate.C91_end",
    "Slate.C91_button_violated",
    "Slate.C91_paste_violated",
    "Slate.C91_stale_violated",
    "Slate.C91_below_violated",
    "Slate.Playground.C91_leftover_violated",
    "Slate.Playground.C91_frozen_violated"
   ],
   "note": "Proved for all sessions of keys and of mouse events inside the screen: the display is exactly what the session paints. Violated: the middle button and the pasted text 'mouse:' end the loop with an exception, an event below the screen is marked elsewhere and hides every later key, and longer names stay behind shorter ones."
  },
  {
   "property": "C92",
   "status": "partial",
   "theorems": [
    "Slate.C92_construct_partial",
    "Slate.C92_answers",
    "Slate.C92_no_tty",
    "Slate.C92_returns",
    "Slate.C92_calls",
    "Slate.C92_display",
    "Slate.C92_echo_violated",
    "Slate.C92_typed_violated"
   ],
   "note": "The display theorem covers every history of calls on a terminal from its constructor on. Violated: the constructor turns the echo on whatever it was, and with a key typed before the replies the key is lost, the text colour is taken to be the background colour and a reply is left in the input."
  },
  {
   "property": "C93",
   "status": "partial",
   "theorems": [
    "Slate.C93_line_partial",
    "Slate.C93_coloured_partial",
    "Slate.C93_default_violated",
    "Slate.C93_leading_violated",
    "Slate.C93_lead_violated",
    "Slate.C93_later_partial"
   ],
   "note": "Exact for all lines over the codes of C31 (without 25) that start with a sequence, in a true-colour terminal, on a new screen and after any history that did not scroll. Violated: text in the default colour is always shown in white, and text before the first sequence is lost."
  },
  {
   "property": "C94",
   "status": "partial",
   "theorems": [
    "Slate.C94_printed_partial",
    "Slate.C94_screen_violated",
    "Slate.C94_parsed_violated",
    "Slate.C94_text_violated",
    "Slate.C94_texts_violated"
   ],
   "note": "Proved for printing. Violated for writing and drawing (the target of a span has no influence on any screen) and for parsing (no span that yield_from yields has a link, and the end of a link is yielded as text)."
  },
  {
   "property": "C95",
   "status": "partial",
   "theorems": [
    "Slate.C95_sent_partial",
    "Slate.C95_sent_violated",
    "Slate.C95_shift_violated",
    "Slate.C95_redraw_violated",
    "Slate.C95_titles_violated",
    "Slate.C95_title_violated"
   ],
   "note": "Proved for all histories of calls whose texts are printable characters and line breaks and whose colour codes are digits and semicolons. Violated by every control character: it is sent as it is and the text after it is displaced. A redraw sends every text without styles as it is, so that text that sets the title of the terminal does so."
  },
  {
   "property": "C96",
   "status": "partial",
   "theorems": [
    "Slate.C96_width_partial",
    "Slate.C96_other_sequence_violated",
    "Slate.C96_counted_violated",
    "Slate.C96_swallowed_violated",
    "Slate.C96_bells_violated",
    "Slate.C96_bell_violated",
    "Slate.C96_control_violated"
   ],
   "note": "Proved for all strings of printable text, renditions, cursor positions, commands ended by ESC \\ and kitty images, in any order and number. Violated for other control sequences (which swallow text up to the next m or H), for commands ended by BEL and for control characters. Characters that take two cells or none are outside the terminal model."
  },
  {
   "property": "C97",
   "status": "partial",
   "theorems": [
    "Slate.C97_roles_partial",
    "Slate.C97_translucent_violated",
    "Slate.C97_translucents_violated",
    "Slate.C97_default_violated",
    "Slate.C97_defaults_violated"
   ],
   "note": "Proved for all histories with opaque foregrounds and translucent or opaque backgrounds in their roles and a terminal background in the background role (as Terminal.write passes it). Violated for translucent foregrounds, and by the default terminal background of Screen.write, which has the foreground role."
  },
  {
   "property": "C98",
   "status": "proved",
   "theorems": [
    "Slate.C98_between"
   ],
   "note": "Any two intervals per channel (a box) that contain the given colours; over all histories of calls, including scrolling, resizing and raising ones."
  },
  {
   "property": "C99",
   "status": "partial",
   "theorems": [
    "Slate.C99_margins_partial",
    "Slate.C99_log_partial",
    "Slate.C99_log_violated",
    "Slate.C99_log_taller_violated",
    "Slate.C99_scroll_violated",
    "Slate.C99_taller_violated"
   ],
   "note": "Every history that did not scroll; logs of any length (line k written at row k and drawn), where the display is given exactly. It is wrong for every log longer than the screen: the line break sent with the new line scrolls the terminal too late (C99_log_violated) or, on a taller terminal, the moved rows are not drawn again (C99_log_taller_violated). Missing: other histories that scroll."
  }
 ]
}
