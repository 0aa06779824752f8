"""Generates /verif/properties.jsonl (kept as a script so that wording stays consistent)."""
import json, os
P = []
def p(id, title, statement, quantifier, why, anchors):
    P.append(dict(id=id, title=title, statement=statement, quantifier=quantifier,
                  why_tests_cant=why, anchors=anchors))

p("C01", "A draw makes the terminal show the screen",
  "After any history of write / write_bulk / clear / render calls on a Screen during which nothing scrolled and the screen was not resized, feeding every rendered string to an ANSI terminal leaves every cell of the terminal showing exactly the character, colours and text styles stored for that cell on the screen.",
  "every screen size, every operation history (any spans, cursors, alpha values, fill characters), every render origin >= (1,1), every initial terminal content",
  "The diff is only right if the change buffer and the real terminal agree after every possible interleaving of writes, overwrites, clears and draws; tests sample a handful.",
  ["slate/screen.py:Screen.write_bulk", "slate/screen.py:Screen.render", "slate/screen.py:Screen.clear", "slate/screen.py:ChangeBuffer"])
p("C02", "A draw only touches changed cells",
  "The cells addressed by a non-redraw render are exactly those cells that were changed by a write (or covered by a clear) since the previous render; a render with no change since the previous one emits only the reset sequence and leaves every terminal cell alone.",
  "every screen state and history between two renders, every origin",
  "Absence of spurious updates is a claim over all cells and all histories.",
  ["slate/screen.py:Screen.render", "slate/screen.py:Screen.write_bulk"])
p("C03", "The return value of write counts the changed cells",
  "The number returned by write / write_bulk equals the number of screen positions whose stored cell after the call differs (Python !=) from the cell stored before the call, hence never exceeds width*height.",
  "every non-scrolling call: all screens, all bulk data, all alpha values",
  "Needs the count to match for every overlap pattern of spans.",
  ["slate/screen.py:Screen.write_bulk", "slate/terminal.py:Terminal.write"])
p("C04", "Writing the same data twice changes nothing",
  "Repeating an identical write_bulk call immediately returns 0, leaves the cells as they were and adds nothing to the next render.",
  "every non-scrolling call on every screen",
  "Must hold for every data set including overlapping translucent spans.",
  ["slate/screen.py:Screen.write_bulk"])
p("C05", "Placement, wrapping and framing of written text",
  "Writing newline-free spans at an in-bounds cursor (x, y) stores the k-th character of the concatenated text in the cell whose row-major index is y*width+x+k, wraps at the right edge, drops what runs past the bottom, stores each character with its own span's colours, and changes no other cell; an out-of-bounds cursor changes nothing.",
  "every screen size, every list of spans without translucent background, every integer cursor",
  "Off-by-one errors at the right and bottom edges depend on arbitrary lengths and offsets.",
  ["slate/screen.py:Screen.write_bulk", "slate/span.py:Span.get_characters"])
p("C06", "The cell matrix always has the advertised shape",
  "After any history of API calls - including calls that scrolled and calls that raised - the screen holds exactly height rows of exactly width cells.",
  "every history of init, resize, clear, write, write_bulk, render, with any arguments",
  "Invariant over unbounded histories and error paths.",
  ["slate/screen.py:Screen.resize", "slate/screen.py:Screen.write_bulk"])
p("C07", "Writing at an explicit position raises only in the scroll-with-empty-span case",
  "write_bulk with explicit integer positions (negative, huge or in range) raises nothing, except IndexError when a line whose scroll test fires has an empty triggering span or the screen has no rows.",
  "every screen reachable by any history and every data argument",
  "Crash freedom is universally quantified over positions, spans and histories.",
  ["slate/screen.py:Screen.write_bulk"])
p("C08", "A bulk write equals the sequential writes (opaque spans)",
  "For spans without translucent background, write_bulk(data) leaves the same cells (Python ==) as writing the entries one by one in order; the result of a cell is decided by the last entry covering it.",
  "every list of entries, every overlap pattern, every screen (no scrolling)",
  "The number of overlap patterns is unbounded.",
  ["slate/screen.py:Screen.write_bulk", "slate/screen.py:Screen.write"])
p("C09", "Clear resets the whole screen",
  "After clear(f) every cell is (f, None, None), the cursor is (0, 0), the size is unchanged, and the next draw re-emits every cell so that the terminal shows f without any style in every cell.",
  "every screen state reached by any history, every fill character",
  "Must cover all prior states including pending changes.",
  ["slate/screen.py:Screen.clear", "slate/screen.py:Screen.resize"])
p("C10", "Resize keeps the overlap and fills the rest",
  "After resize((w, h), f) the size is w x h, every cell in the overlap of the old and new areas is unchanged and every other cell is (f, None, None).",
  "all old and new sizes, all contents",
  "Boundary behaviour over all pairs of sizes.",
  ["slate/screen.py:Screen.resize"])
p("C11", "A draw after a resize shows the kept content",
  "After a resize followed by a draw, the terminal shows what the screen stores, including the content kept from before the resize.",
  "all screens with content and all new sizes",
  "Depends on the interplay of the change buffer with arbitrary kept content.",
  ["slate/screen.py:Screen.resize", "slate/screen.py:Screen.render"])
p("C12", "A draw never addresses a cell outside the screen",
  "Every cursor position addressed by a non-redraw render lies inside the current screen area (shifted by the origin).",
  "every history of writes, clears, resizes and renders",
  "Stale coordinates can only be excluded by an invariant over histories.",
  ["slate/screen.py:Screen.resize", "slate/screen.py:ChangeBuffer", "slate/screen.py:Screen.render"])
p("C13", "A write without a cursor continues where the last write ended",
  "write(data) without a cursor starts at the screen's cursor, and after any write the cursor is the position following the last written character.",
  "every screen and every write",
  "Universally quantified over histories of writes.",
  ["slate/screen.py:Screen.write", "slate/terminal.py:Terminal.write", "README.md"])
p("C14", "force_overwrite registers every written character as a change",
  "With force_overwrite set, every cell covered by the write is counted in the return value and re-emitted by the next draw, even if its content did not change.",
  "every write",
  "Over all data and screen contents.",
  ["slate/screen.py:Screen.write_bulk", "slate/terminal.py:Terminal.write"])
p("C15", "A redraw reproduces the complete screen",
  "render(redraw=True) emits every row at its place, so that a terminal with arbitrary previous content shows exactly the stored characters, styles and colours.",
  "every screen content, every origin >= (1,1), every previous terminal content",
  "Over all contents.",
  ["slate/screen.py:Screen.render", "slate/terminal.py:Terminal.draw"])
p("C16", "Scrolling places a logical row at row minus offset",
  "When lines are written at ever growing logical rows, the scrollback offset never decreases, a line written at logical row y >= height+offset moves the offset to y-height+1, every row on screen moves up, and a line at logical row y with offset <= y < offset+height is stored at screen row y-offset.",
  "every history of line writes, any number of spans per line",
  "Invariant over unbounded histories.",
  ["slate/screen.py:Screen.write_bulk"])
p("C17", "After a clear the top-left cell is addressed by (0, 0)",
  "After clear(), writing a character at cursor (0, 0) stores it in the top-left cell.",
  "every history before the clear",
  "History-dependent hidden state (the scrollback offset) must be considered.",
  ["slate/screen.py:Screen.clear", "slate/screen.py:Screen.write_bulk"])
p("C18", "Span.get_characters is a function of the span",
  "get_characters called on equal spans with equal arguments always returns equal lists, no matter what was written to any screen in between.",
  "every span and every history of screen writes",
  "Aliasing of a cached mutable list only shows after particular histories.",
  ["slate/span.py:Span.get_characters", "slate/screen.py:Screen.write_bulk"])
p("C19", "Later opaque content hides what is below it in a bulk write",
  "In write_bulk, a cell whose last covering span has an opaque (or no) background shows exactly that span's character and colours, whatever was written below it in the same call.",
  "all bulk data",
  "Over all layerings.",
  ["slate/screen.py:Screen.write_bulk"])
p("C20", "Stored colours are always valid and backgrounds always opaque",
  "In every reachable screen every stored colour has all channels in 0..255, every stored background is fully opaque (alpha 1) or absent, and a written cell always has a foreground; no blending step can raise the RGB range error.",
  "every history with any colours and alphas, with IEEE double rounding in the blend",
  "Range safety of floating point blends over all alphas and channel values.",
  ["slate/screen.py:_get_blended", "slate/color.py:Color.blend", "slate/color.py:Color.__post_init__"])
p("C21", "A translucent foreground is blended with its background",
  "When a span with a foreground of alpha < 1 is written over a background, the stored foreground is a mixture lying channelwise between the foreground and the background and equal to neither unless the channel arithmetic forces it.",
  "all colours and alphas",
  "Over all colours and alphas.",
  ["slate/screen.py:Screen.write_bulk", "slate/screen.py:_get_blended"])
p("C22", "Render addresses each pending cell once, in reading order, shifted by the origin",
  "A non-redraw render walks the pending cells in row-major order, each exactly once, at column x+origin_x and row y+origin_y; a cursor move is emitted exactly when a cell is not the right neighbour of the previous one; and the pending set is empty afterwards.",
  "every change buffer and origin",
  "Ordering and uniqueness over all change sets.",
  ["slate/screen.py:ChangeBuffer.gather", "slate/screen.py:Screen.render"])
p("C23", "A failed draw loses no changes",
  "If Terminal.draw raises at any point before the output reached the stream, a later draw still emits all pending changes.",
  "every crash point inside draw, every pending change set",
  "Crash points.",
  ["slate/terminal.py:Terminal.draw", "slate/screen.py:Screen.render"])

p("C24", "Visual width",
  "For a span with escape-free text, width(str(span)) == width(span) == len(span) == len(span.text), whatever colours, styles and hyperlink the span has.",
  "all texts, styles, colours in every colour space, hyperlinks",
  "Regex-based stripping must be right for every combination of sequences and text.",
  ["slate/core.py:width", "slate/core.py:RE_ANSI", "slate/span.py:Span.__len__", "slate/span.py:Span._generate_sequences"])
p("C25", "Parsing a rendered span gives the span back",
  "Span.first_from(str(s)) equals s for every span s with non-empty escape-free text, no hyperlink, not opaque, with foreground/background colours in their role, in a true-colour terminal.",
  "all texts, all 2^9 style combinations, all colours",
  "Encoder/decoder round trip over an infinite domain.",
  ["slate/span.py:Span.yield_from", "slate/span.py:Span.first_from", "slate/span.py:_parse_sequence", "slate/span.py:Span._generate_sequences"])
p("C26", "The characters of a span join up to the span",
  "For a span without hyperlink, \"\".join(span.get_characters()) == str(span).",
  "all spans with non-empty text",
  "Over all texts and style combinations, and both reset_after settings.",
  ["slate/span.py:Span.get_characters", "slate/span.py:Span.__post_init__"])
p("C27", "Every character cell is self-contained",
  "With always_include_sequence each element of get_characters, printed on a terminal with a clean pen, shows its character with exactly the span's styles (and colours unless excluded); there is one element per character, and the last one leaves the pen clean.",
  "all spans with printable text and reset_after",
  "Over all texts and styles.",
  ["slate/span.py:Span.get_characters"])
p("C28", "Slicing and splitting a span",
  "span[i:j] has the text text[i:j] and the same style; span.split(c) yields spans of the same style whose texts joined by c give back the text, none of which contains c; len(span[i:j]) follows Python slicing for all integer i, j.",
  "all texts, all integer indices, all separators",
  "Over all indices incl. negative ones.",
  ["slate/span.py:Span.__getitem__", "slate/span.py:Span.split"])
p("C29", "mutate changes only the named attributes",
  "span.mutate(k=v) equals span in every attribute other than k.",
  "all spans and attributes",
  "Over all spans.",
  ["slate/span.py:Span.mutate", "slate/span.py:Span.attrs"])
p("C30", "yield_from loses no visible text",
  "The texts of the spans generated from a line concatenate to the visible text of the line.",
  "all lines of SGR sequences and printable text",
  "Parsing over all strings.",
  ["slate/span.py:Span.yield_from", "slate/span.py:RE_ANSI_STYLES"])
p("C31", "yield_from tracks styles like a terminal",
  "For a line made of SGR sequences each followed by text, the i-th generated span carries exactly the styles and colours an ANSI terminal would have active after the first i sequences.",
  "all such lines of any length, over the SGR codes for styles 1-9 and their resets, standard/bright/8-bit/true colours and 39/49",
  "State machine over unbounded sequences of codes.",
  ["slate/span.py:_parse_sequence", "slate/span.py:_is_valid_color", "slate/span.py:Span.yield_from"])
p("C32", "yield_from rejects bad sequences with ValueError only",
  "Iterating yield_from over any line either succeeds or raises ValueError.",
  "all strings",
  "Over all strings.",
  ["slate/span.py:Span.yield_from", "slate/span.py:_parse_sequence"])
p("C33", "Grouping cells preserves text, order and look",
  "Span.group over a row of cells yields spans whose texts concatenate to the cells' characters in order, and each character ends up in a span with its own cell's styles, foreground and background.",
  "all rows of cells",
  "Over all adjacency patterns.",
  ["slate/span.py:Span.group"])
p("C34", "Grouping and SVG export never crash on a reachable screen",
  "Span.group (hence export_svg) terminates without exception for the rows of every reachable screen.",
  "every history of operations",
  "Reachability over histories.",
  ["slate/span.py:Span.group", "slate/screen.py:Screen.export_svg_with_styles"])
p("C35", "SVG text is escaped",
  "The text placed into SVG contains no raw '<', '>', quote or space and only well-formed entities, and decoding the entities gives back the original text (spaces as no-break spaces).",
  "all strings",
  "Injection safety over all strings.",
  ["slate/span.py:_escape_html", "slate/span.py:Span.as_svg"])
p("C36", "A printed span shows its text in its style and resets",
  "Printing str(span) on a terminal with a clean pen shows each character with the span's styles and colours in consecutive columns and leaves the pen clean if reset_after is set.",
  "all spans with printable text and clean hyperlink, every colour space",
  "Over all spans.",
  ["slate/span.py:Span.__post_init__", "slate/span.py:Span._generate_sequences"])

p("C37", "Hex round trip",
  "color(c.hex) has the same RGB as c, c.hex is '#' and six upper-case hex digits, and color('#RRGGBBAA') has channels RR, GG, BB and alpha AA/255 for every upper or lower case digits.",
  "all RGB triples, all hex strings of length 6/8",
  "16.7M (resp. 4G x case) inputs.",
  ["slate/color.py:Color.from_hex", "slate/color.py:Color.__post_init__", "slate/color.py:color"])
p("C38", "Only valid colours exist",
  "Constructing a Color succeeds iff all channels are in 0..255; blend, lighten, darken, hue_shift, complement, contrast, as_background, as_alpha of a valid colour never raise and give a valid colour; from_ansi either raises or gives a valid colour.",
  "all colours, amounts and strings",
  "Closure over all inputs.",
  ["slate/color.py:Color"])
p("C39", "Blending stays between its endpoints",
  "For 0 <= alpha <= 1 every channel of a.blend(b, alpha) lies between the channels of a and b; alpha 0 gives a, alpha 1 gives b, the result is monotone in alpha, and for any alpha the channel is clamped to 0..255 - all under IEEE-754 double rounding.",
  "all colours and all rational (hence double) alphas",
  "Floating point behaviour over all alphas.",
  ["slate/color.py:Color.blend"])
p("C40", "lighten / darken are monotone and saturate",
  "For shade_count, step_size >= 0, lighten never lowers and darken never raises any channel, more shades never go back, 0 shades is the identity, and shade_count*step_size >= 1 gives white resp. black.",
  "all colours, counts and step sizes",
  "Over all counts.",
  ["slate/color.py:Color.lighten", "slate/color.py:Color.darken"])
p("C41", "True-colour ANSI round trip",
  "In a true-colour terminal, Color.from_ansi(c.ansi) has c's RGB and c's foreground/background role for every directly constructed or hex colour; distinct (RGB, role) pairs have distinct codes.",
  "all colours and roles",
  "16.7M x 2 inputs through string formatting and parsing.",
  ["slate/color.py:Color.ansi", "slate/color.py:Color.from_ansi"])
p("C42", "Standard colours: nearest of the 16",
  "In a 16-colour terminal the emitted code denotes a palette entry whose weighted distance to the colour is minimal among the 16 entries, palette colours map to themselves, and the code is in 30-37/90-97 (40-47/100-107 for backgrounds).",
  "all colours",
  "Minimality over all inputs.",
  ["slate/color.py:Color.ansi", "slate/color.py:geometric_difference", "slate/color_info.py:COLOR_TABLE"])
p("C43", "8-bit colours: best approximation in the colour cube",
  "In a 256-colour terminal the emitted index lies in the 6x6x6 cube (16..231) and denotes the cube entry closest to the colour in every channel.",
  "all colours",
  "Over all inputs.",
  ["slate/color.py:Color.ansi", "slate/color_info.py:COLOR_TABLE"])
p("C44", "NO_COLOR: greyscale by lightness",
  "With NO_COLOR every colour is emitted as an index of the 24-step grey ramp (232..255), black as 232 and white as 255, and a colour with channelwise larger values never gets a darker grey.",
  "all colours",
  "Monotonicity and range of a composition of real powers over all inputs.",
  ["slate/color.py:Color.ansi", "slate/color.py:calculate_luminance", "slate/color.py:calculate_brightness"])
p("C45", "contrast satisfies the W3C contrast guideline",
  "c.contrast has a W3C contrast ratio of at least 4.5:1 against c for every colour c.",
  "all colours",
  "Real-valued inequality over all colours.",
  ["slate/color.py:calculate_contrast", "slate/color.py:calculate_luminance"])
p("C46", "ANSI colours are passed through verbatim when supported",
  "A colour created by from_ansi is emitted exactly as given if the terminal's colour space is at least the space of the code, and converted from its RGB value otherwise; whatever is emitted for a standard, 8-bit or true-colour code parses back to a colour with the same role.",
  "all ANSI colour codes and colour spaces",
  "Over all codes.",
  ["slate/color.py:Color.ansi", "slate/color.py:Color.from_ansi"])
p("C47", "Changing the colour space takes effect",
  "After terminal.color_space is changed, the codes emitted for a colour are those of the new colour space.",
  "all colours and all histories of colour space changes and uses",
  "History dependent caching.",
  ["slate/color.py:Color.ansi", "slate/terminal.py:Terminal.color_space"])
p("C48", "A write that changes the look is always drawn",
  "If a write gives a cell a colour code or role different from what is displayed, the next draw updates the cell.",
  "all colours and cells",
  "Depends on the compatibility of Color.__eq__ with the emitted codes.",
  ["slate/color.py:Color.__eq__", "slate/screen.py:Screen.write_bulk"])
p("C49", "Hue shifting",
  "hue_shift by any amount gives a valid colour with the same role; shifting a grey by any amount, or any colour by an integer amount, keeps every channel up to the 1/256 normalisation loss; hue_shift(a) only depends on a modulo 1.",
  "all colours and amounts (exact arithmetic)",
  "Over all amounts.",
  ["slate/color.py:Color.hue_shift", "slate/color.py:Color.complement"])

p("C50", "Colour spaces are totally ordered",
  "The comparison operators on ColorSpace (also against their string names) form a total order standard < no_color < eight_bit < true_color, and comparing with an unknown name raises ValueError.",
  "all pairs, all strings",
  "Order laws.",
  ["slate/core.py:ColorSpace"])
p("C51", "Precedence of colour space detection",
  "get_color_space: a set SLATE_COLORSYS decides alone (ValueError if unknown), else a set NO_COLOR (even empty) gives NO_COLOR, else COLORTERM decides if non-blank, else the part of TERM after the last 'xterm-'; anything unknown gives STANDARD; the forced colour space of a Terminal beats all.",
  "all environments",
  "Over all strings in four variables.",
  ["slate/core.py:get_color_space", "slate/terminal.py:Terminal.color_space"])
p("C52", "Mouse events are decoded correctly",
  "For every SGR mouse report \\x1b[<b;x;yM / m with a supported button code, parse_mouse_event returns mouse:<modifiers><event>@x;y with exactly the modifiers encoded in the bits of b, release instead of click for 'm', and the position digits unchanged; different reports give different results except for press/release of drag, hover and scroll.",
  "all positions, all modifier combinations, all supported buttons",
  "Unbounded positions; whole code table.",
  ["slate/core.py:parse_mouse_event", "slate/core.py:_build_event", "slate/core.py:MOUSE_EVENTS"])
p("C53", "Non-mouse input is not mistaken for mouse input",
  "parse_mouse_event returns None for every code that is not a mouse report and never raises.",
  "all strings",
  "Over all strings.",
  ["slate/core.py:parse_mouse_event", "slate/core.py:getch"])
p("C54", "Key naming",
  "getch maps every key sequence in the key table to all of its names and every other non-mouse sequence to itself; ctrl-<letter> is recognised for every letter; with raw it returns the input unchanged.",
  "all input strings",
  "Over all strings.",
  ["slate/core.py:getch", "slate/key_names.py:POSIX_KEY_NAMES"])
p("C55", "Key equality",
  "A Key equals a string iff the string is one of its names, iterating gives exactly the names, str gives the first; a Key never equals a non-string.",
  "all keys and objects",
  "Over all values.",
  ["slate/core.py:Key"])
p("C56", "Fed text is read back in order",
  "The texts passed to feed are returned by getch in feeding order, nothing lost, nothing twice.",
  "all interleavings of feed and getch",
  "Over all histories.",
  ["slate/core.py:feed", "slate/core.py:_getch_posix"])
p("C57", "resolution reports the terminal's reply",
  "If the terminal answers the pixel size query with height H and width W, terminal.resolution is (W, H); without an answer it is the fallback.",
  "all H, W and fallbacks",
  "Over all sizes.",
  ["slate/terminal.py:Terminal.resolution", "slate/core.py:getch", "slate/core.py:parse_mouse_event"])
p("C58", "Default colour query",
  "A palette reply rgb:RRRR/GGGG/BBBB yields the colour with the high bytes of the channels; any reply of another form yields the built-in default of the queried layer; a valid colour is always returned.",
  "all replies",
  "Over all strings and all 2^48 channel values.",
  ["slate/core.py:get_default_color", "slate/core.py:RE_PALETTE_REPLY"])
p("C59", "getch restores the terminal mode",
  "However a getch call ends - input read, interrupt, timeout, read error - the tty attributes afterwards are those before the call.",
  "every crash/interrupt point inside the call",
  "Crash points.",
  ["slate/core.py:_getch_posix", "slate/core.py:getch", "slate/core.py:timeout"])
p("C60", "getch_timeout returns the input or the default",
  "getch_timeout returns exactly what getch returns if it finishes in time and the default otherwise, and always disarms the alarm.",
  "every point at which the timeout can strike",
  "Schedules.",
  ["slate/core.py:getch_timeout", "slate/core.py:timeout"])

p("C61", "Context managers always undo their mode",
  "For every nesting of alt_buffer, report_mouse, batch and no_echo and every way the body ends (normally or by an exception at any point), the terminal modes after the outermost block are: normal buffer, cursor visible (if it was hidden by the block), mouse reporting off, no pending synchronized update, echo on; and inside a block not nested in another of its kind the mode is in force throughout.",
  "all programs built from nested blocks, writes and exceptions",
  "Crash points and nesting.",
  ["slate/terminal.py:Terminal.alt_buffer", "slate/terminal.py:Terminal.report_mouse", "slate/terminal.py:Terminal.batch", "slate/terminal.py:Terminal.no_echo"])
p("C62", "The original title is restored",
  "When alt_buffer ends, the terminal's title is the one it had before the application first called set_title.",
  "all histories of set_title calls and alt_buffer sessions",
  "History dependent.",
  ["slate/terminal.py:Terminal.set_title", "slate/terminal.py:Terminal.alt_buffer"])
p("C63", "Resize notifications",
  "on_resize fires with the new size at a size query exactly when the size differs from the previously observed one, and after every size query the screen has the observed size.",
  "all sequences of terminal sizes and queries",
  "Histories.",
  ["slate/terminal.py:Terminal.size", "slate/terminal.py:Terminal.__post_init__"])
p("C64", "A resize handler may ask for the size",
  "An on_resize listener that queries terminal.size (or width/height) terminates and sees the new size.",
  "all listeners that query the size",
  "Re-entrancy.",
  ["slate/terminal.py:Terminal.size", "slate/event.py:Event.__call__"])
p("C65", "Event emission",
  "Calling an event invokes every listener exactly once, in registration order, with the data, regardless of what earlier ones returned, and returns whether any of them returned a true value; a raising listener stops the emission and propagates; after clear no listener is invoked.",
  "all listener lists, return values and raise points",
  "All lists.",
  ["slate/event.py:Event"])
p("C66", "Writing strings equals writing the parsed spans",
  "Terminal.write(s) with a string behaves as writing list(Span.yield_from(s)), and Terminal.write_bulk accepts strings in the same way.",
  "all strings",
  "All strings.",
  ["slate/terminal.py:Terminal.write", "slate/terminal.py:Terminal.write_bulk"])
p("C67", "SVG export places every cell and uses valid colours",
  "export_svg places the text of every group at x = origin_x + column*char_width and y = origin_y + row*char_height, and every fill attribute is a valid '#RRGGBB' colour.",
  "all screens",
  "All contents.",
  ["slate/screen.py:Screen.export_svg_with_styles", "slate/terminal.py:Terminal.export_svg", "slate/span.py:Span.as_svg"])

if __name__ == "__main__":
    with open(os.path.join(os.path.dirname(__file__), "..", "properties.jsonl"), "w") as f:
        for q in P:
            f.write(json.dumps(q) + "\n")
    print(len(P))
