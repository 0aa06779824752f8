{"id": "C01", "title": "A draw makes the terminal show the screen", "statement": "After any history of write / write_bulk / clear / render calls on a Screen during which nothing scrolled and the screen was not resized, feeding every rendered string to an ANSI terminal leaves every cell of the terminal showing exactly the character, colours and text styles stored for that cell on the screen.", "quantifier": "every screen size, every operation history (any spans, cursors, alpha values, fill characters), every render origin >= (1,1), every initial terminal content", "why_tests_cant": "The diff is only right if the change buffer and the real terminal agree after every possible interleaving of writes, overwrites, clears and draws; tests sample a handful.", "anchors": ["slate/screen.py:Screen.write_bulk", "slate/screen.py:Screen.render", "slate/screen.py:Screen.clear", "slate/screen.py:ChangeBuffer"]}
{"id": "C02", "title": "A draw only touches changed cells", "statement": "The cells addressed by a non-redraw render are exactly those cells that were changed by a write (or covered by a clear) since the previous render; a render with no change since the previous one emits only the reset sequence and leaves every terminal cell alone.", "quantifier": "every screen state and history between two renders, every origin", "why_tests_cant": "Absence of spurious updates is a claim over all cells and all histories.", "anchors": ["slate/screen.py:Screen.render", "slate/screen.py:Screen.write_bulk"]}
{"id": "C03", "title": "The return value of write counts the changed cells", "statement": "The number returned by write / write_bulk equals the number of screen positions whose stored cell after the call differs (Python !=) from the cell stored before the call, hence never exceeds width*height.", "quantifier": "every non-scrolling call: all screens, all bulk data, all alpha values", "why_tests_cant": "Needs the count to match for every overlap pattern of spans.", "anchors": ["slate/screen.py:Screen.write_bulk", "slate/terminal.py:Terminal.write"]}
{"id": "C04", "title": "Writing the same data twice changes nothing", "statement": "Repeating an identical write_bulk call immediately returns 0, leaves the cells as they were and adds nothing to the next render.", "quantifier": "every non-scrolling call on every screen", "why_tests_cant": "Must hold for every data set including overlapping translucent spans.", "anchors": ["slate/screen.py:Screen.write_bulk"]}
{"id": "C05", "title": "Placement, wrapping and framing of written text", "statement": "Writing newline-free spans at an in-bounds cursor (x, y) stores the k-th character of the concatenated text in the cell whose row-major index is y*width+x+k, wraps at the right edge, drops what runs past the bottom, stores each character with its own span's colours, and changes no other cell; an out-of-bounds cursor changes nothing.", "quantifier": "every screen size, every list of spans without translucent background, every integer cursor", "why_tests_cant": "Off-by-one errors at the right and bottom edges depend on arbitrary lengths and offsets.", "anchors": ["slate/screen.py:Screen.write_bulk", "slate/span.py:Span.get_characters"]}
{"id": "C06", "title": "The cell matrix always has the advertised shape", "statement": "After any history of API calls - including calls that scrolled and calls that raised - the screen holds exactly height rows of exactly width cells.", "quantifier": "every history of init, resize, clear, write, write_bulk, render, with any arguments", "why_tests_cant": "Invariant over unbounded histories and error paths.", "anchors": ["slate/screen.py:Screen.resize", "slate/screen.py:Screen.write_bulk"]}
{"id": "C07", "title": "Writing at an explicit position raises only in the scroll-with-empty-span case", "statement": "write_bulk with explicit integer positions (negative, huge or in range) raises nothing, except IndexError when a line whose scroll test fires has an empty triggering span or the screen has no rows.", "quantifier": "every screen reachable by any history and every data argument", "why_tests_cant": "Crash freedom is universally quantified over positions, spans and histories.", "anchors": ["slate/screen.py:Screen.write_bulk"]}
{"id": "C08", "title": "A bulk write equals the sequential writes (opaque spans)", "statement": "For spans without translucent background, write_bulk(data) leaves the same cells (Python ==) as writing the entries one by one in order; the result of a cell is decided by the last entry covering it.", "quantifier": "every list of entries, every overlap pattern, every screen (no scrolling)", "why_tests_cant": "The number of overlap patterns is unbounded.", "anchors": ["slate/screen.py:Screen.write_bulk", "slate/screen.py:Screen.write"]}
{"id": "C09", "title": "Clear resets the whole screen", "statement": "After clear(f) every cell is (f, None, None), the cursor is (0, 0), the size is unchanged, and the next draw re-emits every cell so that the terminal shows f without any style in every cell.", "quantifier": "every screen state reached by any history, every fill character", "why_tests_cant": "Must cover all prior states including pending changes.", "anchors": ["slate/screen.py:Screen.clear", "slate/screen.py:Screen.resize"]}
{"id": "C10", "title": "Resize keeps the overlap and fills the rest", "statement": "After resize((w, h), f) the size is w x h, every cell in the overlap of the old and new areas is unchanged and every other cell is (f, None, None).", "quantifier": "all old and new sizes, all contents", "why_tests_cant": "Boundary behaviour over all pairs of sizes.", "anchors": ["slate/screen.py:Screen.resize"]}
{"id": "C11", "title": "A draw after a resize shows the kept content", "statement": "After a resize followed by a draw, the terminal shows what the screen stores, including the content kept from before the resize.", "quantifier": "all screens with content and all new sizes", "why_tests_cant": "Depends on the interplay of the change buffer with arbitrary kept content.", "anchors": ["slate/screen.py:Screen.resize", "slate/screen.py:Screen.render"]}
{"id": "C12", "title": "A draw never addresses a cell outside the screen", "statement": "Every cursor position addressed by a non-redraw render lies inside the current screen area (shifted by the origin).", "quantifier": "every history of writes, clears, resizes and renders", "why_tests_cant": "Stale coordinates can only be excluded by an invariant over histories.", "anchors": ["slate/screen.py:Screen.resize", "slate/screen.py:ChangeBuffer", "slate/screen.py:Screen.render"]}
{"id": "C13", "title": "A write without a cursor continues where the last write ended", "statement": "write(data) without a cursor starts at the screen's cursor, and after any write the cursor is the position following the last written character.", "quantifier": "every screen and every write", "why_tests_cant": "Universally quantified over histories of writes.", "anchors": ["slate/screen.py:Screen.write", "slate/terminal.py:Terminal.write", "README.md"]}
{"id": "C14", "title": "force_overwrite registers every written character as a change", "statement": "With force_overwrite set, every cell covered by the write is counted in the return value and re-emitted by the next draw, even if its content did not change.", "quantifier": "every write", "why_tests_cant": "Over all data and screen contents.", "anchors": ["slate/screen.py:Screen.write_bulk", "slate/terminal.py:Terminal.write"]}
{"id": "C15", "title": "A redraw reproduces the complete screen", "statement": "render(redraw=True) emits every row at its place, so that a terminal with arbitrary previous content shows exactly the stored characters, styles and colours.", "quantifier": "every screen content, every origin >= (1,1), every previous terminal content", "why_tests_cant": "Over all contents.", "anchors": ["slate/screen.py:Screen.render", "slate/terminal.py:Terminal.draw"]}
{"id": "C16", "title": "Scrolling places a logical row at row minus offset", "statement": "When lines are written at ever growing logical rows, the scrollback offset never decreases, a line written at logical row y >= height+offset moves the offset to y-height+1, every row on screen moves up, and a line at logical row y with offset <= y < offset+height is stored at screen row y-offset.", "quantifier": "every history of line writes, any number of spans per line", "why_tests_cant": "Invariant over unbounded histories.", "anchors": ["slate/screen.py:Screen.write_bulk"]}
{"id": "C17", "title": "After a clear the top-left cell is addressed by (0, 0)", "statement": "After clear(), writing a character at cursor (0, 0) stores it in the top-left cell.", "quantifier": "every history before the clear", "why_tests_cant": "History-dependent hidden state (the scrollback offset) must be considered.", "anchors": ["slate/screen.py:Screen.clear", "slate/screen.py:Screen.write_bulk"]}
{"id": "C18", "title": "Span.get_characters is a function of the span", "statement": "get_characters called on equal spans with equal arguments always returns equal lists, no matter what was written to any screen in between.", "quantifier": "every span and every history of screen writes", "why_tests_cant": "Aliasing of a cached mutable list only shows after particular histories.", "anchors": ["slate/span.py:Span.get_characters", "slate/screen.py:Screen.write_bulk"]}
{"id": "C19", "title": "Later opaque content hides what is below it in a bulk write", "statement": "In write_bulk, a cell whose last covering span has an opaque (or no) background shows exactly that span's character and colours, whatever was written below it in the same call.", "quantifier": "all bulk data", "why_tests_cant": "Over all layerings.", "anchors": ["slate/screen.py:Screen.write_bulk"]}
{"id": "C20", "title": "Stored colours are always valid and backgrounds always opaque", "statement": "In every reachable screen every stored colour has all channels in 0..255, every stored background is fully opaque (alpha 1) or absent, and a written cell always has a foreground; no blending step can raise the RGB range error.", "quantifier": "every history with any colours and alphas, with IEEE double rounding in the blend", "why_tests_cant": "Range safety of floating point blends over all alphas and channel values.", "anchors": ["slate/screen.py:_get_blended", "slate/color.py:Color.blend", "slate/color.py:Color.__post_init__"]}
{"id": "C21", "title": "A translucent foreground is blended with its background", "statement": "When a span with a foreground of alpha < 1 is written over a background, the stored foreground is a mixture lying channelwise between the foreground and the background and equal to neither unless the channel arithmetic forces it.", "quantifier": "all colours and alphas", "why_tests_cant": "Over all colours and alphas.", "anchors": ["slate/screen.py:Screen.write_bulk", "slate/screen.py:_get_blended"]}
{"id": "C22", "title": "Render addresses each pending cell once, in reading order, shifted by the origin", "statement": "A non-redraw render walks the pending cells in row-major order, each exactly once, at column x+origin_x and row y+origin_y; a cursor move is emitted exactly when a cell is not the right neighbour of the previous one; and the pending set is empty afterwards.", "quantifier": "every change buffer and origin", "why_tests_cant": "Ordering and uniqueness over all change sets.", "anchors": ["slate/screen.py:ChangeBuffer.gather", "slate/screen.py:Screen.render"]}
{"id": "C23", "title": "A failed draw loses no changes", "statement": "If Terminal.draw raises at any point before the output reached the stream, a later draw still emits all pending changes.", "quantifier": "every crash point inside draw, every pending change set", "why_tests_cant": "Crash points.", "anchors": ["slate/terminal.py:Terminal.draw", "slate/screen.py:Screen.render"]}
{"id": "C24", "title": "Visual width", "statement": "For a span with escape-free text, width(str(span)) == width(span) == len(span) == len(span.text), whatever colours, styles and hyperlink the span has.", "quantifier": "all texts, styles, colours in every colour space, hyperlinks", "why_tests_cant": "Regex-based stripping must be right for every combination of sequences and text.", "anchors": ["slate/core.py:width", "slate/core.py:RE_ANSI", "slate/span.py:Span.__len__", "slate/span.py:Span._generate_sequences"]}
{"id": "C25", "title": "Parsing a rendered span gives the span back", "statement": "Span.first_from(str(s)) equals s for every span s with non-empty escape-free text, no hyperlink, not opaque, with foreground/background colours in their role, in a true-colour terminal.", "quantifier": "all texts, all 2^9 style combinations, all colours", "why_tests_cant": "Encoder/decoder round trip over an infinite domain.", "anchors": ["slate/span.py:Span.yield_from", "slate/span.py:Span.first_from", "slate/span.py:_parse_sequence", "slate/span.py:Span._generate_sequences"]}
{"id": "C26", "title": "The characters of a span join up to the span", "statement": "For a span without hyperlink, \"\".join(span.get_characters()) == str(span).", "quantifier": "all spans with non-empty text", "why_tests_cant": "Over all texts and style combinations, and both reset_after settings.", "anchors": ["slate/span.py:Span.get_characters", "slate/span.py:Span.__post_init__"]}
{"id": "C27", "title": "Every character cell is self-contained", "statement": "With always_include_sequence each element of get_characters, printed on a terminal with a clean pen, shows its character with exactly the span's styles (and colours unless excluded); there is one element per character, and the last one leaves the pen clean.", "quantifier": "all spans with printable text and reset_after", "why_tests_cant": "Over all texts and styles.", "anchors": ["slate/span.py:Span.get_characters"]}
{"id": "C28", "title": "Slicing and splitting a span", "statement": "span[i:j] has the text text[i:j] and the same style; span.split(c) yields spans of the same style whose texts joined by c give back the text, none of which contains c; len(span[i:j]) follows Python slicing for all integer i, j.", "quantifier": "all texts, all integer indices, all separators", "why_tests_cant": "Over all indices incl. negative ones.", "anchors": ["slate/span.py:Span.__getitem__", "slate/span.py:Span.split"]}
{"id": "C29", "title": "mutate changes only the named attributes", "statement": "span.mutate(k=v) equals span in every attribute other than k.", "quantifier": "all spans and attributes", "why_tests_cant": "Over all spans.", "anchors": ["slate/span.py:Span.mutate", "slate/span.py:Span.attrs"]}
{"id": "C30", "title": "yield_from loses no visible text", "statement": "The texts of the spans generated from a line concatenate to the visible text of the line.", "quantifier": "all lines of SGR sequences and printable text", "why_tests_cant": "Parsing over all strings.", "anchors": ["slate/span.py:Span.yield_from", "slate/span.py:RE_ANSI_STYLES"]}
{"id": "C31", "title": "yield_from tracks styles like a terminal", "statement": "For a line made of SGR sequences each followed by text, the i-th generated span carries exactly the styles and colours an ANSI terminal would have active after the first i sequences.", "quantifier": "all such lines of any length, over the SGR codes for styles 1-9 and their resets, standard/bright/8-bit/true colours and 39/49", "why_tests_cant": "State machine over unbounded sequences of codes.", "anchors": ["slate/span.py:_parse_sequence", "slate/span.py:_is_valid_color", "slate/span.py:Span.yield_from"]}
{"id": "C32", "title": "yield_from rejects bad sequences with ValueError only", "statement": "Iterating yield_from over any line either succeeds or raises ValueError.", "quantifier": "all strings", "why_tests_cant": "Over all strings.", "anchors": ["slate/span.py:Span.yield_from", "slate/span.py:_parse_sequence"]}
{"id": "C33", "title": "Grouping cells preserves text, order and look", "statement": "Span.group over a row of cells yields spans whose texts concatenate to the cells' characters in order, and each character ends up in a span with its own cell's styles, foreground and background.", "quantifier": "all rows of cells", "why_tests_cant": "Over all adjacency patterns.", "anchors": ["slate/span.py:Span.group"]}
{"id": "C34", "title": "Grouping and SVG export never crash on a reachable screen", "statement": "Span.group (hence export_svg) terminates without exception for the rows of every reachable screen.", "quantifier": "every history of operations", "why_tests_cant": "Reachability over histories.", "anchors": ["slate/span.py:Span.group", "slate/screen.py:Screen.export_svg_with_styles"]}
{"id": "C35", "title": "SVG text is escaped", "statement": "The text placed into SVG contains no raw '<', '>', quote or space and only well-formed entities, and decoding the entities gives back the original text (spaces as no-break spaces).", "quantifier": "all strings", "why_tests_cant": "Injection safety over all strings.", "anchors": ["slate/span.py:_escape_html", "slate/span.py:Span.as_svg"]}
{"id": "C36", "title": "A printed span shows its text in its style and resets", "statement": "Printing str(span) on a terminal with a clean pen shows each character with the span's styles and colours in consecutive columns and leaves the pen clean if reset_after is set.", "quantifier": "all spans with printable text and clean hyperlink, every colour space", "why_tests_cant": "Over all spans.", "anchors": ["slate/span.py:Span.__post_init__", "slate/span.py:Span._generate_sequences"]}
{"id": "C37", "title": "Hex round trip", "statement": "color(c.hex) has the same RGB as c, c.hex is '#' and six upper-case hex digits, and color('#RRGGBBAA') has channels RR, GG, BB and alpha AA/255 for every upper or lower case digits.", "quantifier": "all RGB triples, all hex strings of length 6/8", "why_tests_cant": "16.7M (resp. 4G x case) inputs.", "anchors": ["slate/color.py:Color.from_hex", "slate/color.py:Color.__post_init__", "slate/color.py:color"]}
{"id": "C38", "title": "Only valid colours exist", "statement": "Constructing a Color succeeds iff all channels are in 0..255; blend, lighten, darken, hue_shift, complement, contrast, as_background, as_alpha of a valid colour never raise and give a valid colour; from_ansi either raises or gives a valid colour.", "quantifier": "all colours, amounts and strings", "why_tests_cant": "Closure over all inputs.", "anchors": ["slate/color.py:Color"]}
{"id": "C39", "title": "Blending stays between its endpoints", "statement": "For 0 <= alpha <= 1 every channel of a.blend(b, alpha) lies between the channels of a and b; alpha 0 gives a, alpha 1 gives b, the result is monotone in alpha, and for any alpha the channel is clamped to 0..255 - all under IEEE-754 double rounding.", "quantifier": "all colours and all rational (hence double) alphas", "why_tests_cant": "Floating point behaviour over all alphas.", "anchors": ["slate/color.py:Color.blend"]}
{"id": "C40", "title": "lighten / darken are monotone and saturate", "statement": "For shade_count, step_size >= 0, lighten never lowers and darken never raises any channel, more shades never go back, 0 shades is the identity, and shade_count*step_size >= 1 gives white resp. black.", "quantifier": "all colours, counts and step sizes", "why_tests_cant": "Over all counts.", "anchors": ["slate/color.py:Color.lighten", "slate/color.py:Color.darken"]}
{"id": "C41", "title": "True-colour ANSI round trip", "statement": "In a true-colour terminal, Color.from_ansi(c.ansi) has c's RGB and c's foreground/background role for every directly constructed or hex colour; distinct (RGB, role) pairs have distinct codes.", "quantifier": "all colours and roles", "why_tests_cant": "16.7M x 2 inputs through string formatting and parsing.", "anchors": ["slate/color.py:Color.ansi", "slate/color.py:Color.from_ansi"]}
{"id": "C42", "title": "Standard colours: nearest of the 16", "statement": "In a 16-colour terminal the emitted code denotes a palette entry whose weighted distance to the colour is minimal among the 16 entries, palette colours map to themselves, and the code is in 30-37/90-97 (40-47/100-107 for backgrounds).", "quantifier": "all colours", "why_tests_cant": "Minimality over all inputs.", "anchors": ["slate/color.py:Color.ansi", "slate/color.py:geometric_difference", "slate/color_info.py:COLOR_TABLE"]}
{"id": "C43", "title": "8-bit colours: best approximation in the colour cube", "statement": "In a 256-colour terminal the emitted index lies in the 6x6x6 cube (16..231) and denotes the cube entry closest to the colour in every channel.", "quantifier": "all colours", "why_tests_cant": "Over all inputs.", "anchors": ["slate/color.py:Color.ansi", "slate/color_info.py:COLOR_TABLE"]}
{"id": "C44", "title": "NO_COLOR: greyscale by lightness", "statement": "With NO_COLOR every colour is emitted as an index of the 24-step grey ramp (232..255), black as 232 and white as 255, and a colour with channelwise larger values never gets a darker grey.", "quantifier": "all colours", "why_tests_cant": "Monotonicity and range of a composition of real powers over all inputs.", "anchors": ["slate/color.py:Color.ansi", "slate/color.py:calculate_luminance", "slate/color.py:calculate_brightness"]}
{"id": "C45", "title": "contrast satisfies the W3C contrast guideline", "statement": "c.contrast has a W3C contrast ratio of at least 4.5:1 against c for every colour c.", "quantifier": "all colours", "why_tests_cant": "Real-valued inequality over all colours.", "anchors": ["slate/color.py:calculate_contrast", "slate/color.py:calculate_luminance"]}
{"id": "C46", "title": "ANSI colours are passed through verbatim when supported", "statement": "A colour created by from_ansi is emitted exactly as given if the terminal's colour space is at least the space of the code, and converted from its RGB value otherwise; whatever is emitted for a standard, 8-bit or true-colour code parses back to a colour with the same role.", "quantifier": "all ANSI colour codes and colour spaces", "why_tests_cant": "Over all codes.", "anchors": ["slate/color.py:Color.ansi", "slate/color.py:Color.from_ansi"]}
{"id": "C47", "title": "Changing the colour space takes effect", "statement": "After terminal.color_space is changed, the codes emitted for a colour are those of the new colour space.", "quantifier": "all colours and all histories of colour space changes and uses", "why_tests_cant": "History dependent caching.", "anchors": ["slate/color.py:Color.ansi", "slate/terminal.py:Terminal.color_space"]}
{"id": "C48", "title": "A write that changes the look is always drawn", "statement": "If a write gives a cell a colour code or role different from what is displayed, the next draw updates the cell.", "quantifier": "all colours and cells", "why_tests_cant": "Depends on the compatibility of Color.__eq__ with the emitted codes.", "anchors": ["slate/color.py:Color.__eq__", "slate/screen.py:Screen.write_bulk"]}
{"id": "C49", "title": "Hue shifting", "statement": "hue_shift by any amount gives a valid colour with the same role; shifting a grey by any amount, or any colour by an integer amount, keeps every channel up to the 1/256 normalisation loss; hue_shift(a) only depends on a modulo 1.", "quantifier": "all colours and amounts (exact arithmetic)", "why_tests_cant": "Over all amounts.", "anchors": ["slate/color.py:Color.hue_shift", "slate/color.py:Color.complement"]}
{"id": "C50", "title": "Colour spaces are totally ordered", "statement": "The comparison operators on ColorSpace (also against their string names) form a total order standard < no_color < eight_bit < true_color, and comparing with an unknown name raises ValueError.", "quantifier": "all pairs, all strings", "why_tests_cant": "Order laws.", "anchors": ["slate/core.py:ColorSpace"]}
{"id": "C51", "title": "Precedence of colour space detection", "statement": "get_color_space: a set SLATE_COLORSYS decides alone (ValueError if unknown), else a set NO_COLOR (even empty) gives NO_COLOR, else COLORTERM decides if non-blank, else the part of TERM after the last 'xterm-'; anything unknown gives STANDARD; the forced colour space of a Terminal beats all.", "quantifier": "all environments", "why_tests_cant": "Over all strings in four variables.", "anchors": ["slate/core.py:get_color_space", "slate/terminal.py:Terminal.color_space"]}
{"id": "C52", "title": "Mouse events are decoded correctly", "statement": "For every SGR mouse report \\x1b[<b;x;yM / m with a supported button code, parse_mouse_event returns mouse:<modifiers><event>@x;y with exactly the modifiers encoded in the bits of b, release instead of click for 'm', and the position digits unchanged; different reports give different results except for press/release of drag, hover and scroll.", "quantifier": "all positions, all modifier combinations, all supported buttons", "why_tests_cant": "Unbounded positions; whole code table.", "anchors": ["slate/core.py:parse_mouse_event", "slate/core.py:_build_event", "slate/core.py:MOUSE_EVENTS"]}
{"id": "C53", "title": "Non-mouse input is not mistaken for mouse input", "statement": "parse_mouse_event returns None for every code that is not a mouse report and never raises.", "quantifier": "all strings", "why_tests_cant": "Over all strings.", "anchors": ["slate/core.py:parse_mouse_event", "slate/core.py:getch"]}
{"id": "C54", "title": "Key naming", "statement": "getch maps every key sequence in the key table to all of its names and every other non-mouse sequence to itself; ctrl-<letter> is recognised for every letter; with raw it returns the input unchanged.", "quantifier": "all input strings", "why_tests_cant": "Over all strings.", "anchors": ["slate/core.py:getch", "slate/key_names.py:POSIX_KEY_NAMES"]}
{"id": "C55", "title": "Key equality", "statement": "A Key equals a string iff the string is one of its names, iterating gives exactly the names, str gives the first; a Key never equals a non-string.", "quantifier": "all keys and objects", "why_tests_cant": "Over all values.", "anchors": ["slate/core.py:Key"]}
{"id": "C56", "title": "Fed text is read back in order", "statement": "The texts passed to feed are returned by getch in feeding order, nothing lost, nothing twice.", "quantifier": "all interleavings of feed and getch", "why_tests_cant": "Over all histories.", "anchors": ["slate/core.py:feed", "slate/core.py:_getch_posix"]}
{"id": "C57", "title": "resolution reports the terminal's reply", "statement": "If the terminal answers the pixel size query with height H and width W, terminal.resolution is (W, H); without an answer it is the fallback.", "quantifier": "all H, W and fallbacks", "why_tests_cant": "Over all sizes.", "anchors": ["slate/terminal.py:Terminal.resolution", "slate/core.py:getch", "slate/core.py:parse_mouse_event"]}
{"id": "C58", "title": "Default colour query", "statement": "A palette reply rgb:RRRR/GGGG/BBBB yields the colour with the high bytes of the channels; any reply of another form yields the built-in default of the queried layer; a valid colour is always returned.", "quantifier": "all replies", "why_tests_cant": "Over all strings and all 2^48 channel values.", "anchors": ["slate/core.py:get_default_color", "slate/core.py:RE_PALETTE_REPLY"]}
{"id": "C59", "title": "getch restores the terminal mode", "statement": "However a getch call ends - input read, interrupt, timeout, read error - the tty attributes afterwards are those before the call.", "quantifier": "every crash/interrupt point inside the call", "why_tests_cant": "Crash points.", "anchors": ["slate/core.py:_getch_posix", "slate/core.py:getch", "slate/core.py:timeout"]}
{"id": "C60", "title": "getch_timeout returns the input or the default", "statement": "getch_timeout returns exactly what getch returns if it finishes in time and the default otherwise, and always disarms the alarm.", "quantifier": "every point at which the timeout can strike", "why_tests_cant": "Schedules.", "anchors": ["slate/core.py:getch_timeout", "slate/core.py:timeout"]}
{"id": "C61", "title": "Context managers always undo their mode", "statement": "For every nesting of alt_buffer, report_mouse, batch and no_echo and every way the body ends (normally or by an exception at any point), the terminal modes after the outermost block are: normal buffer, cursor visible (if it was hidden by the block), mouse reporting off, no pending synchronized update, echo on; and inside a block not nested in another of its kind the mode is in force throughout.", "quantifier": "all programs built from nested blocks, writes and exceptions", "why_tests_cant": "Crash points and nesting.", "anchors": ["slate/terminal.py:Terminal.alt_buffer", "slate/terminal.py:Terminal.report_mouse", "slate/terminal.py:Terminal.batch", "slate/terminal.py:Terminal.no_echo"]}
{"id": "C62", "title": "The original title is restored", "statement": "When alt_buffer ends, the terminal's title is the one it had before the application first called set_title.", "quantifier": "all histories of set_title calls and alt_buffer sessions", "why_tests_cant": "History dependent.", "anchors": ["slate/terminal.py:Terminal.set_title", "slate/terminal.py:Terminal.alt_buffer"]}
{"id": "C63", "title": "Resize notifications", "statement": "on_resize fires with the new size at a size query exactly when the size differs from the previously observed one, and after every size query the screen has the observed size.", "quantifier": "all sequences of terminal sizes and queries", "why_tests_cant": "Histories.", "anchors": ["slate/terminal.py:Terminal.size", "slate/terminal.py:Terminal.__post_init__"]}
{"id": "C64", "title": "A resize handler may ask for the size", "statement": "An on_resize listener that queries terminal.size (or width/height) terminates and sees the new size.", "quantifier": "all listeners that query the size", "why_tests_cant": "Re-entrancy.", "anchors": ["slate/terminal.py:Terminal.size", "slate/event.py:Event.__call__"]}
{"id": "C65", "title": "Event emission", "statement": "Calling an event invokes every listener exactly once, in registration order, with the data, regardless of what earlier ones returned, and returns whether any of them returned a true value; a raising listener stops the emission and propagates; after clear no listener is invoked.", "quantifier": "all listener lists, return values and raise points", "why_tests_cant": "All lists.", "anchors": ["slate/event.py:Event"]}
{"id": "C66", "title": "Writing strings equals writing the parsed spans", "statement": "Terminal.write(s) with a string behaves as writing list(Span.yield_from(s)), and Terminal.write_bulk accepts strings in the same way.", "quantifier": "all strings", "why_tests_cant": "All strings.", "anchors": ["slate/terminal.py:Terminal.write", "slate/terminal.py:Terminal.write_bulk"]}
{"id": "C67", "title": "SVG export places every cell and uses valid colours", "statement": "The export of a screen is a sequence of well-formed elements, a rect and a text for each group of cells of each row in order: both at x = origin_x + column*font_size*0.60167, the text one font size below y = origin_y + row*font_size*1.265 (up to float rounding and rounding to two decimals), filled with the group's colours (exchanged when inverted, defaults where missing), the text decoding to the group's text; and every fill attribute of the document is a valid '#RRGGBB' colour.", "quantifier": "all screens", "why_tests_cant": "All contents.", "anchors": ["slate/screen.py:Screen.export_svg_with_styles", "slate/terminal.py:Terminal.export_svg", "slate/span.py:Span.as_svg"]}
{"id": "C68", "title": "SVG stylesheet matches the elements", "statement": "The stylesheet returned by export_svg_with_styles consists of well-formed rules; the class of every text element has a rule, and all rules for that class declare exactly the bold, dim, italic and underline styles of the group, no property twice, and no fill other than the element's own colour.", "quantifier": "all screens, class templates containing the number, and default colours", "why_tests_cant": "Class numbering depends on the whole sequence of groups.", "anchors": ["slate/screen.py:Screen.export_svg_with_styles", "slate/span.py:Span.get_svg_styles"]}
{"id": "C69", "title": "SVG export keeps every visible style", "statement": "Two spans that differ in bold, dim, italic, underline, strike or conceal differ in their SVG elements or declarations.", "quantifier": "all spans", "why_tests_cant": "All combinations of styles, texts and colours.", "anchors": ["slate/span.py:Span.get_svg_styles", "slate/span.py:STYLE_TO_CSS"]}
{"id": "C70", "title": "Inline SVG styles", "statement": "as_svg(inline_styles=True) writes the declarations of get_svg_styles into the style attribute of the text element.", "quantifier": "all spans, origins, font sizes and classes", "why_tests_cant": "All spans.", "anchors": ["slate/span.py:Span.as_svg"]}
{"id": "C71", "title": "Typed characters are never split", "statement": "On a UTF-8 stream, from the bytes of any text, arriving at any times and in any pieces, getch reads a non-empty prefix of the text and leaves exactly the bytes of the rest; it stops at the first character boundary behind which no byte has arrived, so that no character is split, lost or changed.", "quantifier": "all texts and all arrival times", "why_tests_cant": "All texts and all ways of splitting their bytes.", "anchors": ["slate/core.py:_getch_posix"]}
{"id": "C72", "title": "Malformed bytes are contained", "statement": "A byte that is not part of a valid character disturbs only itself: the valid characters that follow in the same read are returned unchanged.", "quantifier": "all byte streams", "why_tests_cant": "All malformed streams.", "anchors": ["slate/core.py:_getch_posix"]}
{"id": "C73", "title": "Reading ends when the input ends", "statement": "getch returns when the stream has ended (os.read returns no bytes) instead of looping.", "quantifier": "all states of the decoder", "why_tests_cant": "Non-termination cannot be observed by a test.", "anchors": ["slate/core.py:_getch_posix"]}
{"id": "C74", "title": "Windows keys", "statement": "On Windows every key that has a name in NT_KEY_NAMES is returned under that name when its bytes arrive, other text is returned unchanged, and no input raises.", "quantifier": "all waiting byte sequences", "why_tests_cant": "Needs Windows and its keyboard; all byte sequences.", "anchors": ["slate/core.py:_getch_nt", "slate/core.py:getch", "slate/key_names.py:NT_KEY_NAMES"]}
{"id": "C75", "title": "Synchronized update support", "statement": "supports_synchronized_update is True exactly if stdin is a tty and the terminal answers within the time that mode 2026 is set or reset; without an answer it is False.", "quantifier": "all replies", "why_tests_cant": "All replies.", "anchors": ["slate/terminal.py:Terminal.supports_synchronized_update"]}
{"id": "C76", "title": "Hue shifts keep lightness and saturation", "statement": "hue_shift by any amount keeps the largest and the smallest channel of a colour (up to the loss of the normalisation by 256 and 255), hence its lightness and saturation, and its role, in binary64 arithmetic.", "quantifier": "all colours and amounts", "why_tests_cant": "All colours and all floats.", "anchors": ["slate/color.py:Color.hue_shift"]}
{"id": "C77", "title": "Complement", "statement": "The complement of a colour is the colour of opposite hue: every channel x becomes largest plus smallest channel minus x (up to the loss of the normalisation), in the same role; black and white are complements; blend_complement stays between a colour and its complement and keeps the role.", "quantifier": "all colours", "why_tests_cant": "All 2^24 colours.", "anchors": ["slate/color.py:Color.complement", "slate/color.py:Color.blend_complement"]}
{"id": "C78", "title": "Colour groups", "statement": "The triadic, analogous and tetradic groups start with the colour itself; all members have the colour's role, lightness and saturation; the triadic group consists of the cyclic permutations of the channels and the third member of the tetradic group is the opposite colour.", "quantifier": "all colours", "why_tests_cant": "All 2^24 colours.", "anchors": ["slate/color.py:calculate_triadic_group", "slate/color.py:calculate_analogous_group", "slate/color.py:calculate_tetradic_group"]}
{"id": "C79", "title": "Changing the role or the transparency of a colour", "statement": "as_background(b) has the same RGB value and alpha, the role b, and in every colour space a code that paints exactly that layer; as_background(b, alpha=a) has the alpha a; as_alpha(a) has the same RGB value and role and the alpha a.", "quantifier": "all colours, roles, alphas and colour spaces", "why_tests_cant": "Over all colours and alphas, including 0 and colours that have the role already.", "anchors": ["slate/color.py:Color.as_background", "slate/color.py:Color.as_alpha", "slate/color.py:Color.ansi"]}
{"id": "C80", "title": "Named colours", "statement": "color(name) is the colour that the CSS Color Module Level 4 defines for each of its names; color('name;x') has the alpha x; other words raise ValueError.", "quantifier": "all names of the standard, all alpha texts, all other words", "why_tests_cant": "All alpha texts and all words; the table is checked against the standard in full.", "anchors": ["slate/color.py:color", "slate/color_info.py:CSS_COLORS", "slate/color_info.py:NAMED_COLORS"]}
{"id": "C81", "title": "Palette codes", "statement": "The codes 38;5;n and 48;5;n denote entry n of the 256-colour palette (VGA colours, 6x6x6 cube, 24 greys), 30-37, 90-97, 40-47 and 100-107 the first 16 entries, each with the right role; a bare index below 16 denotes that entry as a foreground; indices above 255 raise ValueError.", "quantifier": "all codes", "why_tests_cant": "The table is checked in full against a formula, the range over all integers.", "anchors": ["slate/color.py:Color.from_ansi", "slate/color_info.py:COLOR_TABLE"]}
{"id": "C82", "title": "The as_* methods of spans", "statement": "span.as_bold(v), as_dim, ..., as_hyperlink and as_color give a span that differs from span in the attribute named only; printed, its characters look the same except for that style.", "quantifier": "all spans and values", "why_tests_cant": "Over all spans, colours and terminal states.", "anchors": ["slate/span.py:Span.as_bold", "slate/span.py:Span.as_color", "slate/span.py:Span.mutate"]}
{"id": "C83", "title": "Equality and hashing", "statement": "== on colours and on spans is an equivalence; equal spans print the same string and give the same characters; equal objects have equal hashes.", "quantifier": "all colours, spans and hash functions of tuples", "why_tests_cant": "Over all pairs.", "anchors": ["slate/color.py:Color.__eq__", "slate/span.py:Span"]}
{"id": "C84", "title": "Membership in a span", "statement": "t in span holds iff some slice span[i:j] has the text t.", "quantifier": "all spans and texts", "why_tests_cant": "Over all texts.", "anchors": ["slate/span.py:Span.__contains__", "slate/span.py:Span.__getitem__"]}
{"id": "C85", "title": "Layout of the debug report", "statement": "python -m slate debug prints without an exception; on a terminal the report is 16 lines, all within the width of the longest label plus the longest value plus 6. The first line is a bar of coloured blanks over that width; every value ends in the last column, its label begins in the first; the two terminal colours are shown in themselves on black or white; the last line shows each style once, in that style.", "quantifier": "all values of the environment variables (printable), terminal sizes, colour spaces and colours", "why_tests_cant": "Depends on the lengths of all values and on the terminal's colours.", "anchors": ["slate/__main__.py:run_debug"]}
{"id": "C86", "title": "Keys are named after themselves", "statement": "Whatever a terminal sends for a cursor, editing or function key with any modifiers, getch names that key with those modifiers or returns the sequence unchanged; two different keys never share a name; typed text is never taken for a named key.", "quantifier": "all keys of these blocks, all eight combinations of modifiers, all typed texts", "why_tests_cant": "A test of the table against itself agrees with it; the encodings come from the terminal.", "anchors": ["slate/core.py:getch", "slate/key_names.py:POSIX_KEY_NAMES"]}
{"id": "C87", "title": "Malformed colour descriptions", "statement": "color(d) and Color.from_ansi(d) raise ValueError for every malformed description d, and no other exception for any d.", "quantifier": "all strings", "why_tests_cant": "Over all strings; the exact set of strings that raise IndexError is characterised.", "anchors": ["slate/color.py:color", "slate/color.py:Color.from_ansi", "slate/color.py:Color.from_hex"]}
{"id": "C88", "title": "Line breaks in written text", "statement": "A line break in written text continues the text in the row below, in the column where the text began, whatever the style of the text; nothing is stored for it and no line break is sent to the terminal when drawing.", "quantifier": "all screens, cursors, and texts with any number of line breaks", "why_tests_cant": "The position of a character depends on all breaks and wraps before it, and on the styles of the spans.", "anchors": ["slate/screen.py:Screen.write_bulk"]}
{"id": "C89", "title": "Representation of spans and colours", "statement": "repr(x) of a span or colour x is a Python expression for an equal object: evaluating it gives back x.", "quantifier": "all spans and colours, all strings as text and hyperlink", "why_tests_cant": "Over all strings with quotes, control characters and characters outside ASCII, all combinations of styles and colours.", "anchors": ["slate/span.py:Span.__repr__", "slate/color.py:Color.__repr__"]}
{"id": "C90", "title": "What the command line shows of a key", "statement": "`slate getch` shows every key in printable characters: with --raw as a literal of the characters read, otherwise by its names. `slate size` prints a text that determines the size.", "quantifier": "all texts read from the terminal, all sizes", "why_tests_cant": "Over all texts a terminal can send, including sequences the key table lacks.", "anchors": ["slate/__main__.py:run_getch", "slate/__main__.py:run_size"]}
{"id": "C91", "title": "The mouse playground shows what the user does", "statement": "In examples/mouse_playground.py, after any sequence of keys and mouse events, the terminal shows the last key in the first row, the last mouse event in the second, and an X in every cell where the mouse was, unless later text covers it; 'c' clears the display, ctrl-c or empty input ends the loop, and no input ends it with an exception.", "quantifier": "all sequences of keys and mouse reports, all screen sizes", "why_tests_cant": "Joins reading input, parsing, writing, wrapping and drawing over unbounded sessions.", "anchors": ["examples/mouse_playground.py:main", "slate/core.py:getch", "slate/terminal.py:Terminal.write", "slate/terminal.py:Terminal.draw"]}
{"id": "C92", "title": "Constructing a terminal", "statement": "Terminal() learns the default colours of the terminal, shows nothing, keeps the echo setting, and leaves the user's input to be read. Afterwards write, write_bulk and clear send nothing and read nothing; only draw sends anything, and after any history of calls it makes the terminal show the screen.", "quantifier": "all inputs waiting, all answers of the terminal, all histories of calls with spans, generators and strings, including calls that raise", "why_tests_cant": "Interleaving of typed input with replies, and unbounded histories of calls.", "anchors": ["slate/terminal.py:Terminal.__post_init__", "slate/terminal.py:Terminal.background_color", "slate/terminal.py:Terminal.foreground_color", "slate/core.py:get_default_color", "slate/terminal.py:Terminal.no_echo"]}
{"id": "C93", "title": "Writing a string shows what printing it shows", "statement": "A string of text and SGR sequences, written with Terminal.write and drawn, shows in its cells what the terminal would show if the string were printed there.", "quantifier": "all lines of sequences and printable text that fit into a row, all positions and screen sizes", "why_tests_cant": "Joins parsing, storing, rendering and the terminal over all strings.", "anchors": ["slate/terminal.py:Terminal.write", "slate/span.py:Span.yield_from", "slate/screen.py:Screen.write_bulk", "slate/screen.py:Screen.render"]}
{"id": "C94", "title": "Hyperlinks", "statement": "Of spans printed one after the other, every character is linked to the target of its own span and to nothing else, and no link is left open. Characters written to a screen and drawn stay linked, and parsing what a linked span prints gives its text and its link back.", "quantifier": "all lists of spans with printable text, all targets without escape and bell characters, all colours and styles, all screens", "why_tests_cant": "All texts, targets and neighbours, and a terminal that knows hyperlinks.", "anchors": ["slate/span.py:Span.__str__", "slate/span.py:Span.yield_from", "slate/screen.py:Screen.write_bulk"]}
{"id": "C95", "title": "Control characters never reach the terminal", "statement": "Whatever an application writes, a draw only sends printed characters, line breaks, cursor positions and graphic rendition; control characters and escape sequences in the written text are not sent, and the text around them is shown in its cells.", "quantifier": "all texts, styles and colours, all histories of calls including ones that scroll, resize, redraw or raise", "why_tests_cant": "Unbounded histories and all texts; a single unlucky character in untrusted text is enough.", "anchors": ["slate/screen.py:Screen.write_bulk", "slate/screen.py:Screen.render", "slate/span.py:Span.get_characters", "slate/terminal.py:Terminal.draw"]}
{"id": "C96", "title": "The width of a text is the number of cells it takes", "statement": "For every string, with whatever escape sequences in it, width() is the number of character cells that a terminal prints when the string is sent to it.", "quantifier": "all strings, all terminal states", "why_tests_cant": "Infinitely many texts and escape sequences; a sequence that is not recognised is counted as text or swallows text.", "anchors": ["slate/core.py:width", "slate/core.py:RE_ANSI"]}
{"id": "C97", "title": "Foregrounds colour the text and backgrounds what is behind it", "statement": "In every reachable screen every stored foreground has the foreground role and every stored background the background role, so that a drawn cell has its stored foreground as text colour and its stored background behind it.", "quantifier": "all histories of calls, all texts and colours", "why_tests_cant": "The role of a blended colour depends on the order of blending; unbounded histories and stacks of translucent layers.", "anchors": ["slate/screen.py:Screen.write", "slate/screen.py:Screen.write_bulk", "slate/screen.py:_get_blended", "slate/color.py:Color.blend"]}
{"id": "C98", "title": "Stored colours lie between the given ones", "statement": "In every reachable screen each channel of a stored background lies between the least and the greatest value that the channel has in the backgrounds and terminal backgrounds given so far; each channel of a stored foreground between the extremes of those, of the given foregrounds and of white (the default foreground).", "quantifier": "all histories of calls, all texts and colours with alpha at least 0", "why_tests_cant": "Any number of translucent layers, each rounded; unbounded histories.", "anchors": ["slate/screen.py:Screen.write_bulk", "slate/screen.py:_get_blended", "slate/color.py:Color.blend"]}
{"id": "C99", "title": "Drawing on a terminal with margins", "statement": "On a terminal that has at least the columns and rows the screen needs at its origin, where text past the last column continues on the next line and a line break in the last row scrolls, a draw after any history of calls shows exactly the stored cells: using the last column or the last row neither wraps nor scrolls anything.", "quantifier": "all histories of writes, bulk writes, clears and draws; all screen and terminal sizes, origins and initial terminal contents", "why_tests_cant": "The suite never looks at a terminal; wrapping and scrolling depend on the order in which all pending cells of an unbounded history are sent.", "anchors": ["slate/screen.py:Screen.render", "slate/screen.py:Screen.write", "slate/terminal.py:Terminal.draw"]}
{"id": "C100", "title": "How often an application draws does not matter", "statement": "Two histories of calls that differ only in when something was drawn leave the same cells, size, cursor and offset, later writes return or raise the same, and after a last draw (if nothing scrolled) the terminals show the same.", "quantifier": "all histories of calls (for what is stored: including scrolling, raising and resizing ones), all pairs of ways to interleave draws, all initial terminal contents and origins", "why_tests_cant": "The pending changes differ between the two runs at every point; equality of the results needs an invariant over unbounded histories.", "anchors": ["slate/screen.py:Screen.render", "slate/screen.py:Screen.write_bulk", "slate/screen.py:ChangeBuffer"]}
{"id": "C101", "title": "Characters of two columns", "statement": "On a terminal where some characters take two columns, a draw shows every stored character in the column of its cell.", "quantifier": "all sets of wide characters without ASCII, all histories of writes, bulk writes, clears and draws", "why_tests_cant": "The suite uses ASCII and looks at strings only; the displacement is visible only on a terminal.", "anchors": ["slate/screen.py:Screen.render", "slate/screen.py:Screen.write_bulk", "slate/span.py:Span.get_characters"]}
{"id": "C102", "title": "The text that is read was sent", "statement": "Whatever bytes arrive, the text getch reads consists, in order, of the characters the bytes it took encode and of the representations of those bytes that cannot continue a character; nothing else is made up. The decoder gives a character exactly for the bytes that encode it, waits exactly while a longer character begins with them or they are the first two bytes of a surrogate, and refuses everything else, including complete surrogates and overlong forms.", "quantifier": "all byte streams and all arrival times", "why_tests_cant": "All byte strings, valid or not, and all ways of splitting them.", "anchors": ["slate/core.py:_getch_posix"]}
{"id": "C103", "title": "Overlapping texts of a bulk write form a pile", "statement": "After write_bulk every cell on which no character of the call falls is as before. A cell on which characters fall shows the topmost of them that is not an invisible space, on the background of the topmost opaque layer tinted by the translucent backgrounds above it.", "quantifier": "all screens, all bulk data and all cells", "why_tests_cant": "All numbers and orders of opaque and translucent layers over each other, and the whole screen around them.", "anchors": ["slate/screen.py:Screen.write_bulk", "slate/screen.py:_get_blended"]}
{"id": "C104", "title": "Streams that are not in UTF-8", "statement": "On a stream with a single-byte encoding the first byte and all bytes that are ready after it are taken, and each of them gives the character it stands for, or its representation if it stands for none. A stream without an encoding can be read too.", "quantifier": "all single-byte encodings, all byte streams and all arrival times", "why_tests_cant": "All encodings and byte strings.", "anchors": ["slate/core.py:_getch_posix"]}
{"id": "C105", "title": "A write reports at most as many changes as it has characters", "statement": "The number of changes that a write or a bulk write reports is at most the number of characters of its spans, whether or not the screen scrolls; in particular write(\"0\", cursor=cursor) reports at most one change, as the README asserts.", "quantifier": "all histories of calls, all data and all positions", "why_tests_cant": "All histories, screen sizes, positions and spans.", "anchors": ["slate/screen.py:Screen.write_bulk", "slate/terminal.py:Terminal.write"]}
{"id": "C106", "title": "How a text is divided into spans does not matter", "statement": "Two lines that have the same characters in the same styles and colours show the same when they are written to the same position, however they are divided into spans; in particular a span, its slices, and the list of its one-character pieces, which is what write sees if it is given a single span instead of a list.", "quantifier": "all screens, positions and lines, all divisions into spans", "why_tests_cant": "All divisions of all texts at all positions.", "anchors": ["slate/screen.py:Screen.write_bulk", "slate/span.py:Span.get_characters", "slate/span.py:Span.__getitem__"]}
{"id": "C107", "title": "The resize experiment shows its gradient", "statement": "print_uv((w, h)) on a screen of that size never raises, paints every cell with the lower half block, with red growing with the column and green with the half row, floor(256 * fraction) of the way, and the terminal shows every cell in these two colours.", "quantifier": "all terminal sizes, all screens and terminals before the call", "why_tests_cant": "The quotients are rounded twice before they are truncated, for every size and position; a single 256 would raise.", "anchors": ["experiments/resize.py:print_uv", "experiments/resize.py:normalize", "slate/screen.py:Screen.render"]}
{"id": "C108", "title": "The first example of the README runs", "statement": "The first example of the README fills a terminal of any size with bold crosses in its two colours; after that every zero it writes to a position on the screen reports at most one change, and after every draw the terminal shows zeros where they were written and crosses everywhere else.", "quantifier": "all terminal sizes, all terminals before the start, all sequences of positions", "why_tests_cant": "Every size and every unbounded sequence of random positions.", "anchors": ["README.md", "slate/terminal.py:Terminal.write", "slate/screen.py:Screen.write_bulk", "slate/screen.py:Screen.render"]}
{"id": "C109", "title": "Asking a terminal about itself", "statement": "The width and the height of a terminal, read one after the other, are together a size of the terminal, and the screen has that size; whether the stream is a tty is what the stream says, and a closed stream is not one; the cursor that is set is the cursor that is read, no write, draw or resize moves it, and clear puts it at (0, 0); ringing the bell leaves what the terminal shows unchanged.", "quantifier": "all sequences of sizes the system reports, all listeners that neither raise nor use the terminal, all states, all calls", "why_tests_cant": "The size can change between any two queries, and a cursor can be set at any point of an unbounded history.", "anchors": ["slate/terminal.py:Terminal.width", "slate/terminal.py:Terminal.height", "slate/terminal.py:Terminal.isatty", "slate/terminal.py:Terminal.cursor", "slate/terminal.py:Terminal.bell"]}
{"id": "C110", "title": "Markup denotes styled text", "statement": "styled_from_markup yields one span for every text of a markup document, in order and unchanged, with the styles and colours that the tags in front of it have switched on and not switched off again; nothing is lost, and only unknown tags are reported; mprint prints these spans and a line break. For any string whatever, the texts of the spans are parts of it, in order.", "quantifier": "all documents (any number of tags and texts), and all strings", "why_tests_cant": "The matching of the regular expression backtracks over strings of any length, and styles accumulate over any number of tags.", "anchors": ["experiments/markup.py:styled_from_markup", "experiments/markup.py:parse_color", "experiments/markup.py:apply_auto_foreground", "experiments/markup.py:mprint"]}
{"id": "C111", "title": "Texts that do not overlap are independent", "statement": "If no cell gets characters of two of the texts that are written, it makes no difference in which order they are written and whether they are written by one call of write_bulk or by one call each: every cell, the next draw and everything else about the screen are the same, and the reported numbers of changes add up. This holds for all colours, also translucent ones.", "quantifier": "all screens with any content and any pending changes, all lists of lines that pairwise do not meet, with or without line breaks, all permutations of them", "why_tests_cant": "It relates all orders of any number of lines on screens of any size and content.", "anchors": ["slate/screen.py:Screen.write_bulk", "slate/screen.py:Screen.write", "slate/screen.py:ChangeBuffer.gather"]}
{"id": "C112", "title": "No key is lost between two reads", "statement": "A program that calls getch or getch_timeout again and again gets everything that is typed, once and in order, however the typing and the steps of the program are interleaved.", "quantifier": "all interleavings of any number of calls of getch and getch_timeout with any typing and any alarms", "why_tests_cant": "The loss depends on what happens between single steps of the program; a test that types while getch waits never sees it.", "anchors": ["slate/core.py:_getch_posix", "slate/core.py:getch"]}
{"id": "C113", "title": "Answers of the terminal are received and not shown", "statement": "A query of the terminal (its colours, its resolution, synchronized updates) reads the answer of the terminal, whenever it comes, and the answer is not shown to the user.", "quantifier": "all interleavings of the reading thread, the thread that sends the query and the terminal, which may answer at any time and in any pieces; all answers; all states of the tty", "why_tests_cant": "Two threads and a terminal are interleaved freely, and a test replaces the terminal by a string.", "anchors": ["slate/core.py:get_default_color", "slate/core.py:_getch_posix", "slate/terminal.py:Terminal.supports_synchronized_update", "slate/terminal.py:Terminal.resolution"]}
{"id": "C114", "title": "The command line", "statement": "python -m slate runs a command exactly for the command lines that name it: size, debug, or getch, the last followed by any number of --raw or abbreviations of it (and then the key is shown raw). It prints what the command prints between two empty lines. Asked first, the help or the version is shown whatever follows. Command lines without dashes that name no command are refused.", "quantifier": "all lists of arguments", "why_tests_cant": "Over all lists of texts, with abbreviations, bundled options, negative numbers and -- anywhere among them.", "anchors": ["slate/__main__.py:main"]}
{"id": "C115", "title": "Listeners that change the event", "statement": "While an event is emitted its listeners may add listeners to it or clear it. A listener added then is called in the same emission, once, after all that were registered before it; after a clear no listener registered before is called any more; and the emission ends.", "quantifier": "all events, and listeners that add or clear at any point of the emission", "why_tests_cant": "Over all listeners, including emissions that never end.", "anchors": ["slate/event.py:Event"]}
{"id": "C116", "title": "Reading input in any encoding", "statement": "Whatever the encoding of the input stream, however its bytes are cut into pieces and whenever they arrive, reading a key press ends at the first place where the bytes so far complete a text and no other byte has arrived. It returns the text of the bytes up to there, each byte the decoder refuses shown as its representation, and leaves the others unread; it waits for ever only if there is no such place. In particular the bytes of a text are never cut inside a character.", "quantifier": "all incremental decoders (any machine from bytes to texts and errors), all byte sequences, all arrival times", "why_tests_cant": "Over all decoders, all byte sequences and all arrival times.", "anchors": ["slate/core.py:_getch_posix"]}
{"id": "C117", "title": "A bulk write that scrolls is like writing its lines one by one", "statement": "Writing lines by one call of write_bulk leaves the same screen as writing each of them by a call of its own, also when some of them lie below the window and scroll. In particular a log of any length may be written by one call: the last height lines are shown, in order.", "quantifier": "all histories, all calls of any number of lines at any positions, all logs of any length, all screen sizes", "why_tests_cant": "Over all calls and all histories.", "anchors": ["slate/screen.py:Screen.write_bulk"]}
{"id": "C118", "title": "A printed line of spans can be read back", "statement": "Reading the string of a list of spans (the strings of the spans one after another) with Span.yield_from gives back the spans, and Terminal.write of that string does what Terminal.write of the list does.", "quantifier": "all lists of spans whose texts are non-empty and hold no escape character, without links, that reset and have opaque colours, on a true-colour terminal", "why_tests_cant": "Over all lists of spans of any length.", "anchors": ["slate/span.py:Span.yield_from", "slate/span.py:Span.__str__", "slate/terminal.py:Terminal.write"]}
{"id": "C119", "title": "Screens do not influence each other", "statement": "After any calls on any number of screens of one process, in any order, every screen holds what it would hold after its own calls alone: size, cells, cursor, window and the strings that are still to be drawn.", "quantifier": "all numbers of screens, all interleavings of all calls on them", "why_tests_cant": "All interleavings of the histories of several screens; the influence goes through a cache shared by the whole process, also through what the cache has forgotten.", "anchors": ["slate/screen.py:Screen.write_bulk", "slate/span.py:Span.get_characters"]}
{"id": "C120", "title": "A drawing does not depend on the size of the screen and its place on it", "statement": "Make the same drawing on two new screens, on the second one with all positions moved by some columns and rows: any bulk writes, clears and draws in any order. If on both screens every text starts inside its row, fits into the rest of it and does not lie below the screen (and no span is empty or has a line break), then neither screen scrolls, and every cell of the first screen that has a counterpart on the second one is the same as the counterpart.", "quantifier": "all sizes of both screens, all moves to the right and down, all drawings", "why_tests_cant": "All pairs of sizes, all moves and all histories of calls, with translucent texts over each other.", "anchors": ["slate/screen.py:Screen.write_bulk", "slate/screen.py:Screen.clear", "slate/screen.py:Screen.render"]}
{"id": "C121", "title": "Several screens on one terminal", "statement": "Any number of screens of one process are drawn on one terminal, at origins such that their areas do not overlap, with writes, clears and draws on them in any order. From its last draw on, if nothing is done with it afterwards, the area of every screen shows what the screen would hold if it were the only one, whatever is done with the others. Outside of all areas the terminal is left as it was.", "quantifier": "all numbers, sizes and places of screens, all interleavings of all operations on them", "why_tests_cant": "All interleavings of the histories of several screens on a shared terminal and a shared cache, with all layouts.", "anchors": ["slate/screen.py:Screen.render", "slate/screen.py:Screen.write_bulk", "slate/span.py:Span.get_characters"]}
{"id": "C122", "title": "The screen drawn last is on top", "statement": "Several screens of one process are drawn on one terminal, in areas that may overlap. Immediately after a draw of a screen, its whole area shows what the screen holds, whatever the others have drawn there before.", "quantifier": "all numbers, sizes and places of screens, all interleavings of all operations on them", "why_tests_cant": "All interleavings of the histories of several screens and all ways in which they overlap.", "anchors": ["slate/screen.py:Screen.render", "slate/screen.py:Screen.clear"]}
{"id": "C123", "title": "The colour support of the terminal influences nothing but colours", "statement": "The colour space that is in use, even if it changes between calls, influences neither the cells, size, cursor, offset and cache after any history of calls, nor which cells are pending, nor what a write returns or raises. Two terminals of different colour support on which the same is drawn show the same characters in the same styles all the time, whatever is written, and also when the screen scrolls; only their colours may differ.", "quantifier": "all colour spaces, all histories of calls", "why_tests_cant": "All pairs of colour spaces at every call of all histories.", "anchors": ["slate/screen.py:Screen.write_bulk", "slate/color.py:Color.ansi"]}
{"id": "C124", "title": "Where text lands does not depend on how it looks", "statement": "Two programs that write the same texts at the same places, in different colours and styles, with different hyperlinks and terminal backgrounds and on terminals of different colour support, put the same characters into the same cells, scroll at the same time and get the same exceptions.", "quantifier": "all histories of calls, all texts, colours and styles", "why_tests_cant": "All pairs of histories that differ in looks only.", "anchors": ["slate/screen.py:Screen.write_bulk", "slate/span.py:Span.get_characters"]}
{"id": "C125", "title": "The memory of a screen is bounded", "statement": "A program that writes to a screen for a long time needs no more memory than the size of the screen and of the texts demands: at most one pending change per place, at most 128 cached texts, and cached lists no longer than the texts they belong to.", "quantifier": "all histories of calls of any length, all sizes", "why_tests_cant": "A leak of one character per call shows only in histories of unbounded length.", "anchors": ["slate/screen.py:Screen.write_bulk", "slate/span.py:Span.get_characters"]}
