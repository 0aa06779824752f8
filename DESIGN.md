# A formal model of shade40/Slate in Lean 4

The Python package in `/repo/slate` is modelled function by function, and the
properties of `properties.jsonl` are proved about the model, or refuted. Nothing in
`/repo` was built or run: the model is a reading of the source.

Sections 5 and 6 are written by `tools/mkdesign.py` from `MANIFEST.json`, the doc comments
of the theorems and `#print axioms`.

## 1. Layout

All modules are under `lean/Verif/`; `lean/Verif.lean` imports them.

### Model

Every definition cites the file and the lines it models.

| module | models |
|---|---|
| `Py/Str.lean` | Python string methods (`split`, `join`, `strip`, `replace`, `int`, `f"{n}"`, `f"{n:02X}"`, …) over `Str := List Char` |
| `Py/Float.lean` | binary64 rounding `fl : ℚ → ℚ` (nearest, ties to even), `int()` and `round()` of floats |
| `Model/ColorInfo.lean`, `Model/KeyNames.lean` | the tables of `color_info.py` and `key_names.py`, copied by `tools/gentables.py` |
| `Model/Color.lean` | `color.py`: constructors, `hex`, `ansi`, `blend`, `lighten`, `darken`, palettes |
| `Model/Hls.lean` | `color.py`: `hue_shift`, complement and colour groups; `colorsys` of the standard library |
| `Model/Luminance.lean` | `color.py`: luminance, brightness, contrast |
| `Model/AnsiCache.lean` | the `cached_property` `Color.ansi` |
| `Model/ColorSpace.lean` | `ColorSpace` of `core.py` |
| `Model/Regex.lean` | `RE_ANSI`, `RE_ANSI_NEWLINE`: as syntax, and as the functions used by the model |
| `Model/Span.lean` | `span.py` without SVG |
| `Model/SpanMethods.lean` | the small methods of `span.py` and the hashes of spans and colours |
| `Model/Screen.lean` | `screen.py` without SVG, with the `lru_cache` of `Span.get_characters` |
| `Model/Svg.lean` | the SVG export of `span.py`, `screen.py` and `terminal.py` |
| `Model/Core.lean`, `Model/Input.lean`, `Model/Decode.lean` | `core.py`: mouse events, `getch`, `feed`, replies of the terminal, bytes to text, Windows |
| `Model/Tty.lean`, `Model/Prog.lean` | modes of the tty, signals, context managers, as programs that may be interrupted between any two steps |
| `Model/Wire.lean` | what arrives at the tty between the steps of `getch` and of a query, as interleaved events |
| `Model/Event.lean`, `Model/LiveEvent.lean` | `event.py` |
| `Model/Terminal.lean` | `terminal.py`: `size`, `write`, `write_bulk`, `draw` |
| `Model/Properties.lean` | `terminal.py`: `width`, `height`, `isatty`, `cursor`, `bell` |
| `Py/Repr.lean`, `Model/Repr.lean` | `repr` of strings, spans and colours |
| `Model/Main.lean`, `Model/Commands.lean`, `Model/Cli.lean` | `run_debug`, `run_getch`, `run_size` and `main` of `__main__.py` |
| `Model/Session.lean` | `terminal.py`: the constructor, `background_color`, `foreground_color`, and the methods on a tty with its input |
| `Model/Playground.lean` | the loop of `examples/mouse_playground.py` |
| `Model/Resize.lean` | the listener of `experiments/resize.py` |
| `Model/Tags.lean` | `experiments/markup.py`; its colour class is an arbitrary function |
| `Model/Readme.lean` | the first example of `README.md` |

### Specification

These modules say what the words of the properties mean. They do not use the model's
functions; what they share with the model is data types (`Color`, `Span`, screens).

| module | contains |
|---|---|
| `Spec/Emulator.lean` | an ANSI terminal: cursor addressing, SGR, hyperlinks, a grid of displayed cells |
| `Spec/Links.lean` | what a terminal links to which target |
| `Spec/Width.lean` | text with escape sequences in it, and what of it is shown |
| `Spec/Bounded.lean` | a terminal with margins: wrapping in the last column (deferred), scrolling in the last row; the same histories run on it |
| `Spec/Wide.lean` | a terminal on which the characters of a given set take two columns |
| `Spec/Sized.lean` | histories in which the screen is resized; when a cell was changed since |
| `Spec/Layers.lean` | which characters of a bulk write fall on a cell, and what a pile of them shows |
| `Spec/Scrolls.lean` | where the lines of a bulk write land that scrolls |
| `Spec/Flow.lean` | where the spans of any bulk write go on a screen that scrolls |
| `Spec/Process.lean` | several screens in one process, sharing the cache of `get_characters` |
| `Spec/Viewport.lean` | a drawing made on two screens, moved on the second one |
| `Spec/Desktop.lean` | several screens, drawn on one terminal |
| `Spec/Traffic.lean` | the strings that only paint a screen |
| `Spec/Display.lean` | how a stored cell should look on it |
| `Spec/History.lean`, `Spec/Api.lean` | histories of operations, with and without a terminal |
| `Spec/Modes.lean` | modes (alternate buffer, cursor, mouse, echo, synchronized updates) and the title stack of a terminal |
| `Spec/Input.lean` | what terminals send: SGR mouse reports, size and colour replies |
| `Spec/Keys.lean` | what terminals send for keys, and how keys are named |
| `Spec/NamedColors.lean` | the colour names of CSS, the palette of 256-colour terminals |
| `Spec/Luminance.lean` | W3C luminance and contrast, CIE lightness, over ℝ |
| `Spec/Entities.lean`, `Spec/Markup.lean`, `Spec/Css.lean` | readers for character data, elements and stylesheets |
| `Spec/PyExpr.lean`, `Spec/PyValue.lean` | a reader for Python expressions, and their values as spans and colours |
| `Spec/Playground.lean` | what the mouse playground should show |
| `Spec/Regex.lean` | regular expressions with Python's order of alternatives |

### Proofs

`Lemmas/*.lean` are helpers. `Props/*.lean` have the property theorems, named `CNN_…`.
Beside each one is an `example` that meets its hypotheses in a non-trivial case.

`Check/RepoTests.lean` evaluates the test suite of the repository (`tests/*.py`) in the model. It
proves no property; it compares the model with values written down by the authors of the code.
The assertions that fail in the model are listed there with the lines of the source that contradict them:
the tests are older than the present `write_bulk` and `blend`.

`Check/Builtins.lean`, written by `tools/mkbuiltins.py`, compares the primitives of the model with recorded answers of CPython's own
built-ins (`int`, `float`, string methods, slices, `re`, `html.escape`, the incremental UTF-8 decoder, `io.StringIO`, float
arithmetic, `round`, `colorsys`, and `argparse` with the options of Slate). It proves no property either. It found that the decoder keeps half a surrogate.

## 2. Method

* Exceptions are values (`PyErr`). A method that can raise after it changed its object
  returns the changed object together with the error.
* Loops are structural recursions or folds. Loops that may not end (`_read`) are
  inductive relations.
* Names of theorems: `CNN_x` is proved as stated. `CNN_x_partial` is the part that holds
  when the code violates the rest; its comment says what is missing. `CNN_x_violated` is
  the negation, with a witness or for all inputs of a class.
* Statements are about all inputs, all states or all histories. `decide +kernel` is used for
  witnesses and for finite tables that are complete (the 256 colours, the key tables).
* Operations of binary64 are modelled by exact rational arithmetic followed by `fl`.
* `tools/mkmanifest.py` writes `MANIFEST.json`.

### Mutation testing

`seeded/LOG.jsonl` has one line per wrong program: a definition of the model was edited
in a copy outside `/verif`, like a plausible bug, and the project rebuilt. A theorem counts
as failed if its proof, or the proof of a lemma it uses, no longer checks. When only a lemma
that unfolds the edited definition breaks, everything above it counts as failed; for such
cases the claim was also read against the edit. Mutants that change nothing that
can be observed are marked as such.

## 3. Trusted base

* The kernel of Lean 4.33.0, and Mathlib as checked by it.
* The axioms `propext`, `Classical.choice` and `Quot.sound`; section 6 has them per theorem.
  There are no others: no `sorry`, no `native_decide`, no `bv_decide`.
* The reading of `/repo`: that each definition under `Model/` does what the lines cited do.
* The specifications under `Spec/`, as far as they describe terminals, SVG and the standards.
* The behaviour of Python itself, where the model states it: string methods, `re` (for the
  patterns used, see section 4), `str.format`, dictionaries, `lru_cache`, `cached_property`,
  `sorted`, `colorsys`, `io.StringIO`, `argparse`, the incremental UTF-8 decoder, generators used as
  context managers, `tty.setcbreak` (which discards waiting input by default).

## 4. What is modelled, and how far

Modelled: all of `__main__.py`, `color.py`, `color_info.py`, `core.py`, `event.py`, `key_names.py`,
`screen.py`, `span.py` and `terminal.py` except for the parts below.

Not modelled:

* Type annotations; the texts of the help and of the error messages that `argparse` prints.
* The tables of the encodings: the decoder of the input stream is any machine from bytes to texts (`core.py:402`, C116), and UTF-8 is modelled in full.
* Text that is not printable is excluded by hypothesis where a terminal reads it. Every
  character is one column wide, as in the code; C101 is about terminals with wider ones.

Simplifications:

* `int(…)`, `float(…)`, `str.isdigit`, `str.isspace` and `\d` follow the tables of Unicode 14 (Python 3.11), with the limit of
  4300 digits and with underscores. `lower` is ASCII; this is exact for the names it is compared with.
* Strings are lists of Unicode scalar values. Lone surrogates, which a Python string can contain, are not represented.
* Floats are rationals. Overflow to infinity appears only where the code raises
  `OverflowError` (`int()` of a huge float, C38); there are no NaNs and no signed zeros.
* `pow` of the C library is any function with relative error at most 2⁻⁴⁰ (`PowOk`); the
  theorems C44 and C45 hold for all of them.
* `str.isprintable` and the text of a float in `repr` are parameters of `Model/Repr.lean`; what is
  assumed of them is a hypothesis of the theorems (C89, C90).
* The decimal text of a float in SVG is given by an abstract `Fmt`; what is assumed of it
  is a hypothesis of the theorem.
* `re`: `Spec/Regex.lean` gives the meaning of the patterns, and `Lemmas/Regex.lean` proves that
  the functions of the model compute it. `RE_PALETTE_REPLY` and `RE_PIXEL_SIZE` have no
  alternatives that backtrack and are written as functions directly.
* Signals and exceptions from outside can strike between any two steps of `Model/Tty.lean`. A
  single step (one `tcsetattr`, one `write`) is atomic; partial writes to a stream are not
  modelled. The thread of `get_default_color` is modelled by its result, except in `Model/Wire.lean` (C113), where it is interleaved with the
  other thread and the terminal.
* Listeners of an event do not add or remove listeners while it is emitted, except in
  `Model/LiveEvent.lean` (C115).
* XML: control characters that XML forbids are not excluded by the code or by the reader.
* `Screen` cells are reached by non-negative indices; where Python's negative indices can occur
  (cursors left of or above the screen) they are modelled.
* The `lru_cache` of `Color.blend` is not modelled. Colours that are equal but have different roles have
  different hashes (C83), so it can only mix them up if two 64-bit hashes collide.
* The `lru_cache` of `Span.get_characters` is modelled with its 128 entries, for the calls
  that `write_bulk` makes. Its key is the equality of spans. Spans made under different colour spaces
  differ in a computed field in Python; in the model the colour space is fixed in a history.

<!-- generated -->

## 5. Results

| id | property | status | theorems in | note |
|---|---|---|---|---|
| C01 | A draw makes the terminal show the screen | proved | `Props/Draw.lean` | Non-redraw renders (redraw is C15). Texts printable; colours whose code is a colour code. |
| C02 | A draw only touches changed cells | proved | `Props/AfterRedraw.lean`, `Props/AnyCache.lean`, `Props/Draw.lean` |  |
| C03 | The return value of write counts the changed cells | proved | `Props/AnyCache.lean`, `Props/Unseen.lean`, `Props/Write.lean` |  |
| C04 | Writing the same data twice changes nothing | partial | `Props/AnyCache.lean`, `Props/Write.lean` | Proved for every screen and whatever the cache of get_characters holds if the call has at most 128 different spans (the size of the cache), and for any number of spans if the cache is right. The code violates the full property: with 129 different spans on a screen that has scrolled, a wrong entry leaves the cache between the two calls and the second one changes a cell. |
| C05 | Placement, wrapping and framing of written text | partial | `Props/Corner.lean`, `Props/PrintLater.lean`, `Props/Write.lean` | The code violates the full property: an overflowing line can scroll. Proved when nothing scrolls; C05_corner_violated shows that every call excluded by the corner condition scrolls. |
| C06 | The cell matrix always has the advertised shape | proved | `Props/Shape.lean` |  |
| C07 | Writing at an explicit position raises only in the scroll-with-empty-span case | proved | `Props/Shape.lean` |  |
| C08 | A bulk write equals the sequential writes (opaque spans) | proved | `Props/AnyCache.lean`, `Props/Bulk.lean` |  |
| C09 | Clear resets the whole screen | proved | `Props/Draw.lean` |  |
| C10 | Resize keeps the overlap and fills the rest | proved | `Props/Shape.lean` |  |
| C100 | How often an application draws does not matter | proved | `Props/Often.lean` | The display part for histories that did not scroll (scrolled screens are not shown correctly by any draw, see C99). |
| C101 | Characters of two columns | partial | `Props/Wide.lean` | Holds for all histories without wide characters. Every wide character violates it: what follows it is shown one column too far right. |
| C102 | The text that is read was sent | proved | `Props/Utf8.lean` | Spells is unique (Spells.unique). What the decoder still keeps when getch returns is lost (C72_cut_short_violated). |
| C103 | Overlapping texts of a bulk write form a pile | partial | `Props/Flow.lean`, `Props/Layers.lean` | The whole content of every cell is given exactly by a declarative pile (Spec/Layers) without matrices. Not as stated: translucent backgrounds below the topmost opaque layer tint it too, for all such layers (C103_hidden_violated). Calls that scroll are covered by C103_scroll_partial, for texts without line breaks. |
| C104 | Streams that are not in UTF-8 | partial | `Props/Codec.lean` | Proved for all single-byte encodings. Fails without an encoding: the first byte is lost and TypeError is raised, on every stream (str += bytes). |
| C105 | A write reports at most as many changes as it has characters | proved | `Props/Count.lean` |  |
| C106 | How a text is divided into spans does not matter | partial | `Props/Pieces.lean`, `Props/Pieces2.lean`, `Props/Pieces3.lean` | Proved for all texts of a bulk write, translucent or not, on screens that have not scrolled and writes that do not scroll, up to the colour of spaces over other spaces. Fails for those (tinted or not by whether a reset follows), on scrolled screens (every span is moved up by the offset again), at the end of the screen (another span scrolls) and for reset_after=False (last character loses its style). |
| C107 | The resize experiment shows its gradient | partial | `Props/Resize.lean` | The rounding is harmless up to 2^44 columns and rows, nothing raises and every cell is stored as claimed, and a draw() shows it. But the experiment draws with redraw=True: at every size, every block is shown in the default colours, and no later draw() changes that. |
| C108 | The first example of the README runs | partial | `Props/Readme.lean` | Proved if the first writes are given the cursor (0, 0). As printed in the README, the first write raises TypeError on every terminal, because a write without a cursor does not work (C13). |
| C109 | Asking a terminal about itself | partial | `Props/Properties.lean` | The code violates the full property: width and height are two queries, and the size may change in between. Proved if it does not, and C109_dimensions says exactly what is read otherwise; the rest is proved. |
| C11 | A draw after a resize shows the kept content | partial | `Props/Shape.lean`, `Props/Sized.lean` | The code violates the full property: a kept cell is queued with the fill character. C11_exact_partial says what is shown after any history with resizes: the stored content of the cells changed since the last one, its fill character everywhere else. |
| C110 | Markup denotes styled text | partial | `Props/Tags.lean`, `Props/Tags2.lean` | Proved for documents whose tags are styles or unknown; C110_exact_partial says what is read if they are in several pairs of brackets. The last sentence is proved for all strings. The code violates the rest: every text with a colour among its tags makes the generator raise (colours are passed to Span as strings), tags in two pairs of brackets have no effect, and text before a closing bracket is dropped (both for all tags and texts). |
| C111 | Texts that do not overlap are independent | partial | `Props/Apart.lean`, `Props/Apart2.lean` | Two calls in both orders and joined, and all permutations of any number of lines. Which cells a line covers is said by layersAt of Spec/Layers. Fails for calls that scroll: a text that is scrolled by another one of the same call is overwritten. C08 says the same of overlapping opaque texts, up to Python equality. |
| C112 | No key is lost between two reads | partial | `Props/Wire.lean` | C112_exact says for all interleavings which characters are returned: those that arrive while a call listens that no alarm cuts off. C112_left says that only setcbreak discards what was not read. Nothing is lost if everything is typed while a call listens and no alarm strikes a call that has heard something. A key that was read when the time of getch_timeout ran out is lost. Everything typed between two calls is lost, because tty.setcbreak discards what waits (TCSAFLUSH is its default). |
| C113 | Answers of the terminal are received and not shown | partial | `Props/Wire.lean` | Proved in every execution in which the answer comes in one piece while the reader listens. If the terminal answers before the reading thread has set the mode of the tty, the answer is discarded and the query waits until a key is pressed, which is then taken for the answer. An answer in two pieces is cut. Nothing is shown if the echo is off, as it is when colours are queried; the other queries leave it on. |
| C114 | The command line | proved | `Props/Cli.lean` | With argparse of Python 3.11. The only arguments refused before anything else is done are those that begin with --=, which could be --help or --version. |
| C115 | Listeners that change the event | partial | `Props/LiveEvent.lean` | The code violates the full property: an emission whose listeners keep adding listeners never ends, and a listener added after a clear is not called in the same emission. |
| C116 | Reading input in any encoding | proved | `Props/Decoder.lean` | The decoder is a parameter; UTF-8, single-byte encodings and encodings with characters of one and two bytes are shown to be instances. The tables of the encodings are not part of the model. |
| C117 | A bulk write that scrolls is like writing its lines one by one | partial | `Props/BulkScroll.lean`, `Props/Flow.lean` | The code violates the property for every log longer than the screen: the rows of the screen move up when a line scrolls, but not the lines of the same call that were written before, so the first lines stay and all later ones are piled up in the last row. What is left in every cell is given exactly for all calls without line breaks in their texts (C103_scroll_partial), and as the last text on it if the lines are single opaque spans. |
| C118 | A printed line of spans can be read back | partial | `Props/Reparse.lean` | The code violates the property for every list except those of at most one span without styles and colours. The reset sequence after a span is not known to the reader: at the end of the string it is read as four characters of text, and before any other span it makes reading raise ValueError, so that Terminal.write writes nothing. Plain spans before a styled one are dropped. What is read is given exactly for all lists. |
| C119 | Screens do not influence each other | partial | `Props/Process.lean`, `Props/Shared.lean` | The code violates the property: scrolling changes the lists in the cache of get_characters, which all screens share. Another screen that scrolls with an equal span adds line breaks to what this one draws, or, if the text has a line break, changes its cells; and what a screen draws after it has scrolled depends on how much was written to others. Proved exactly, including what is still to be drawn, for a screen that does not scroll while the others do not scroll with its spans; and, whatever scrolls and whatever is called on the others, for texts without line breaks and without invisible spaces on translucent backgrounds: size, cells, cursor, window and full redraws are the same, and the strings to be drawn up to line breaks at their ends. |
| C12 | A draw never addresses a cell outside the screen | partial | `Props/Shape.lean`, `Props/Shrink.lean`, `Props/Sized.lean` | The code violates the full property: stale changes survive a shrinking resize. C12_clamped_violated: a terminal with margins shows them in the rows that are left. C12_exact_partial says exactly what a draw after a resize addresses, C12_fresh_violated that every screen made smaller before its first draw violates it. |
| C120 | A drawing does not depend on the size of the screen and its place on it | proved | `Props/Viewport.lean`, `Props/Viewport2.lean` | Whole cells, not only characters; and after a last draw the two terminals show the same there, at any two origins and whatever was on them. Rows may be negative or above the screen; columns may not. |
| C121 | Several screens on one terminal | partial | `Props/Desktop.lean`, `Props/Desktop2.lean`, `Props/Desktop3.lean` | Proved while no screen scrolls; then the order in which the screens are used has no influence at all (C121_order_partial). The code violates the full property: after one screen has scrolled, spans equal to those that scrolled are drawn on all screens with line breaks, which move what is drawn next into the area of another screen. |
| C122 | The screen drawn last is on top | partial | `Props/Overlap.lean` | Proved, while no screen scrolls, for a screen that was cleared since its previous draw. The code violates the rest: a draw sends only changed cells, so every screen that has been drawn stays covered by what others draw over it, however often it is drawn again. (A redraw sends all cells, but without their colours, C15.) |
| C123 | The colour support of the terminal influences nothing but colours | proved | `Props/AnySpace.lean`, `Props/AnySpace2.lean` | C123_cells and C123_history are about arbitrary calls with arbitrary texts, fill strings and places, scrolling and raising ones included, each under its own pair of colour environments; the colours of C123_history are made from channels, hex strings or codes of a terminal. C123_shown is about every pair of terminals and meanings of colours. |
| C124 | Where text lands does not depend on how it looks | partial | `Props/Layout.lean`, `Props/Layout2.lean` | Proved for all histories of calls with printable texts, scrolling, resizing and raising ones included; translucent backgrounds may meet translucent ones only, as they let the text below show through their spaces. The code violates it for texts with line breaks: in a styled span a line break takes a cell (C88); so every text with a second line, and every style, violates it (C124_every_break_violated). |
| C125 | The memory of a screen is bounded | partial | `Props/Memory.lean` | Proved for all histories, scrolling and raising ones included: the pending changes are at most one per place of the largest size the screen had, and the cache holds at most 128 lists. The lists themselves are not bounded: C125_leak_violated shows for every size, every text that is not empty and every n that writing that text n times below the window leaves a cached list n characters longer than the text (screen.py:207 extends the list that lru_cache keeps). By C18_lengthened_partial one character per write is the most that can be lost. Lengths count the entries and characters, not bytes of the python objects. |
| C13 | A write without a cursor continues where the last write ended | partial | `Props/Properties.lean`, `Props/Shape.lean` | The code violates the property: every write without a cursor raises TypeError, and the cursor has no influence on any history of calls. Only the negation is proved. |
| C14 | force_overwrite registers every written character as a change | partial | `Props/AnyCache.lean`, `Props/Shape.lean` | The code violates the full property: force_overwrite has no effect. Proved for cells whose content changes. |
| C15 | A redraw reproduces the complete screen | partial | `Props/Leak.lean`, `Props/Redraw.lean` | The code violates the full property: a redraw drops colours and leaks styles. Characters proved for all screens, the full look for uncoloured ones. C15_exact_partial says what is shown of every screen: the styles since the last reset, and no colours. So every coloured cell is redrawn wrongly (C15_colourless_violated). |
| C16 | Scrolling places a logical row at row minus offset | partial | `Props/Drift.lean`, `Props/Scroll.lean` | The code violates the full property for lines of several spans, on every scrolled screen and whenever they scroll (only the last span is then written), and for every jump of more than one row. For a line that fits into a row of the window it is proved where exactly each span goes: span k of the line is stored k times the offset above its row. |
| C17 | After a clear the top-left cell is addressed by (0, 0) | partial | `Props/Cleared.lean`, `Props/Scroll.lean` | The code violates the full property on scrolled screens: clear keeps the scrollback offset. C17_exact_partial: after a clear the cell in row r is addressed by r plus the old offset. |
| C18 | Span.get_characters is a function of the span | partial | `Props/Poison.lean`, `Props/Shape.lean` | The code violates the full property: write_bulk mutates the cached list. Proved for histories that do not scroll; in all histories the list is right up to line breaks at its end, at most one for each time the span was written (C18_lengthened_partial). Every write of a span below the window adds one (C18_scroll_violated). |
| C19 | Later opaque content hides what is below it in a bulk write | partial | `Props/Bulk.lean`, `Props/Hidden.lean`, `Props/Layers.lean` | The code violates the full property: an opaque write does not clear the alpha stack, so a strong tint hides every opaque background written over it (C19_tints_violated, all histories and calls). C19_scroll_partial: all histories and calls without line breaks, with no tint above the lowest text. |
| C20 | Stored colours are always valid and backgrounds always opaque | proved | `Props/Redraw.lean` |  |
| C21 | A translucent foreground is blended with its background | partial | `Props/Bulk.lean`, `Props/Invisible.lean` | The code violates the full property: over an opaque background the stored foreground is the background. |
| C22 | Render addresses each pending cell once, in reading order, shifted by the origin | proved | `Props/Draw.lean` |  |
| C23 | A failed draw loses no changes | partial | `Props/Terminal.lean` | The code violates the full property: a failure between rendering and sending loses the pending changes. |
| C24 | Visual width | partial | `Props/General.lean`, `Props/OddCode.lean`, `Props/Span.lean` | The code violates the full property for hyperlinks with a newline and for colours whose stored code is not one. |
| C25 | Parsing a rendered span gives the span back | partial | `Props/Parse.lean`, `Props/ParseExact.lean` | The code violates the full property without reset_after and for translucent colours; C25_exact says for which spans exactly it holds. |
| C26 | The characters of a span join up to the span | partial | `Props/Span.lean` | The code violates the full property for one-character spans with reset_after; their exact output is proved. |
| C27 | Every character cell is self-contained | partial | `Props/BareIndex.lean`, `Props/Span.lean` | Fails only for colours whose stored code is not a colour code. |
| C28 | Slicing and splitting a span | proved | `Props/Span.lean` |  |
| C29 | mutate changes only the named attributes | partial | `Props/Span.lean` | The code violates the full property: mutate drops reset_after. |
| C30 | yield_from loses no visible text | partial | `Props/Parse.lean` | The code violates the full property: text before the first sequence is lost. |
| C31 | yield_from tracks styles like a terminal | partial | `Props/Parse.lean`, `Props/ParseStops.lean` | The code violates the full property for the codes 0, 25, 28 and 29. Proved for all lines over the others. C31_exact_partial: with 25 only fast blinking differs, and exactly while the last 6 has a 25 after it. C31_stops_partial: at the first sequence with another number reading stops, with ValueError if a number has no meaning (0 is one) and TypeError otherwise (26, 28, 29, 54). |
| C32 | yield_from rejects bad sequences with ValueError only | partial | `Props/Parse.lean`, `Props/ParseIndex.lean`, `Props/ParseStops.lean` | The code violates the full property: TypeError and IndexError occur; proved which sequences of a line are to blame for every string (C32_where_partial), that every true-colour code with an alpha value for its third channel raises IndexError (C32_index_violated), and for lines of sequences with text where reading stops and with which exception (C31_stops_partial). |
| C33 | Grouping cells preserves text, order and look | partial | `Props/Group.lean`, `Props/GroupLooks.lean` | The code violates the full property: a coloured cell equal in text to an uncoloured group start loses its colour. C33_exact_partial: this is exactly when looks are lost, namely when a run of uncoloured cells of one style (other than a plain run at the start of the row) is followed by a coloured cell with the string of the first of the run. |
| C34 | Grouping and SVG export never crash on a reachable screen | partial | `Props/Group.lean`, `Props/GroupExact.lean` | The code violates the full property after scrolling (empty cells). Proved for unscrolled histories and for all rows without empty cells. C34_exact_partial: without resizes a row raises exactly if it begins with an empty cell or has two side by side. So every line written below the window that leaves the first or the last two cells free breaks the export (C34_export_violated). |
| C35 | SVG text is escaped | proved | `Props/Span.lean` |  |
| C36 | A printed span shows its text in its style and resets | partial | `Props/BareIndex.lean`, `Props/Span.lean` | Fails only for colours whose stored code is not a colour code. |
| C37 | Hex round trip | proved | `Props/Codes.lean` |  |
| C38 | Only valid colours exist | partial | `Props/Blend.lean`, `Props/BlendLimit.lean`, `Props/Codes.lean`, `Props/HueFloat.lean`, `Props/Luminance.lean` | The code violates the full property: blending by a huge amount raises OverflowError; C38_blend_exact_partial says exactly when. |
| C39 | Blending stays between its endpoints | proved | `Props/Blend.lean` | Binary64 rounding is modelled. |
| C40 | lighten / darken are monotone and saturate | proved | `Props/Blend.lean` | Binary64 rounding is modelled. |
| C41 | True-colour ANSI round trip | proved | `Props/Codes.lean` |  |
| C42 | Standard colours: nearest of the 16 | partial | `Props/BareIndex.lean`, `Props/Palette.lean` | Proved for every colour not made by from_ansi from a malformed code; those violate it. |
| C43 | 8-bit colours: best approximation in the colour cube | partial | `Props/Palette.lean` | The code violates the full property: the emitted index need not be the closest one; the exact set is proved. |
| C44 | NO_COLOR: greyscale by lightness | partial | `Props/Luminance.lean` | The code violates the full property for colours made by from_ansi. Proved for the others, for every pow function accurate to 2^-40. |
| C45 | contrast satisfies the W3C contrast guideline | partial | `Props/Luminance.lean` | The code violates the full property. Proved: 3.4 always, and 4.5 exactly for luminances up to 0.164 and from 0.2506 on. |
| C46 | ANSI colours are passed through verbatim when supported | partial | `Props/Codes.lean`, `Props/Suffix.lean` | The code violates the full property for true colour codes with an alpha suffix and for codes starting with #. |
| C47 | Changing the colour space takes effect | partial | `Props/Cache.lean` | The code violates the full property: a colour keeps the code of its first use. |
| C48 | A write that changes the look is always drawn | partial | `Props/Cache.lean`, `Props/Unseen.lean` | The code violates the full property: equality of colours ignores role and code. |
| C49 | Hue shifting | proved | `Props/Hue.lean`, `Props/HueFloat.lean` | In exact arithmetic, as stated; the _float theorems are about binary64. |
| C50 | Colour spaces are totally ordered | partial | `Props/Codes.lean` | The code violates the full property: < and <= against a name raise TypeError. |
| C51 | Precedence of colour space detection | proved | `Props/Input.lean` |  |
| C52 | Mouse events are decoded correctly | proved | `Props/Mouse.lean` |  |
| C53 | Non-mouse input is not mistaken for mouse input | partial | `Props/Mouse.lean` | The code violates the full property: KeyError, IndexError and false events for other codes with two semicolons; C53_exact says for which codes exactly. |
| C54 | Key naming | partial | `Props/Mouse.lean` | The code violates the full property for other sequences with two semicolons, and what was read before a mouse report is lost. |
| C55 | Key equality | proved | `Props/Mouse.lean` |  |
| C56 | Fed text is read back in order | partial | `Props/Input.lean` | The code violates the full property: feeding while a text waits overwrites it. C56_exact says what is read after any interleaving. |
| C57 | resolution reports the terminal's reply | partial | `Props/Input.lean` | The code violates the full property: every answer is taken for a mouse event. |
| C58 | Default colour query | proved | `Props/Input.lean` |  |
| C59 | getch restores the terminal mode | partial | `Props/Tty.lean` | The code violates the full property when an exception arrives between the change of the attributes and the try block, or in the finally block. |
| C60 | getch_timeout returns the input or the default | partial | `Props/Tty.lean` | The code violates the full property: an alarm that strikes in the finally block, before signal.alarm(0), escapes although the body has finished, whatever the body is. |
| C61 | Context managers always undo their mode | partial | `Props/Blocks.lean`, `Props/Traffic.lean` | The code violates the full property for nested blocks of the same kind and for batches. |
| C62 | The original title is restored | partial | `Props/Blocks.lean`, `Props/Titles.lean` | The code violates the full property in a second session and with empty titles. C62_exact says what the title is after any history; every second session leaves its last title (C62_sessions_violated). |
| C63 | Resize notifications | partial | `Props/Size.lean` | The code violates the full property when a listener raises. |
| C64 | A resize handler may ask for the size | partial | `Props/Size.lean` | The code violates the property: every such listener ends in RecursionError. |
| C65 | Event emission | partial | `Props/Event.lean` | The code violates the full property: a true value that is neither bool nor int raises TypeError. C65_stops_partial says exactly what happens then, and C65_cases that there is no third case. |
| C66 | Writing strings equals writing the parsed spans | partial | `Props/Terminal.lean` | The code violates the full property: write_bulk raises AttributeError for strings. |
| C67 | SVG export places every cell and uses valid colours | partial | `Props/Svg.lean` | Placement, colours and text are proved for every screen whose cells have valid colours, and for every reachable one, when the export does not raise (C34); positions up to float rounding and two decimals. The last clause is false: the rectangle behind the screen has fill '##RRGGBB' for every colour. |
| C68 | SVG stylesheet matches the elements | proved | `Props/Svg.lean` | For every screen with valid colours whose export does not raise; the template must give different classes to different numbers. |
| C69 | SVG export keeps every visible style | partial | `Props/Svg.lean` | True for bold, dim, italic and underline. False for strike and conceal: for every span they change nothing in the export (STYLE_TO_CSS has the key 'strikethrough', the attribute is called 'strike'). |
| C70 | Inline SVG styles | partial | `Props/Svg.lean` | False for every span: the attribute is called 'styles'. What holds: the declarations are in that attribute. |
| C71 | Typed characters are never split | proved | `Props/Decode.lean` | For all texts and all arrival times of their bytes; UTF-8 by Lean's own encoder. |
| C72 | Malformed bytes are contained | partial | `Props/Decode.lean` | Fails: after a lead byte that is not continued, all ASCII characters of the read are returned as the repr of their byte, because the decoder keeps the lead byte. After the first two bytes of a surrogate nothing at all is decoded any more. Holds for bytes that cannot begin a character. |
| C73 | Reading ends when the input ends | partial | `Props/Decode.lean` | Fails: at the end of the input the loop of _read never ends. It ends with the character if one is there. |
| C74 | Windows keys | partial | `Props/Decode.lean` | C74_exact says what is returned for any bytes. Fails: F11, F12, every byte above 127 except a leading 0xE0, and two arrow keys waiting together raise UnicodeDecodeError. Holds for the other named keys and for ASCII text. |
| C75 | Synchronized update support | proved | `Props/Decode.lean` | Exact characterisation for all replies. |
| C76 | Hue shifts keep lightness and saturation | proved | `Props/Harmony.lean` | All colours and all amounts, in binary64 arithmetic. |
| C77 | Complement | partial | `Props/Harmony.lean` | Fails: the complement of every colour with r > g = b (hue 0) is a black foreground. Exact for all other colours, in binary64; the complements of greys are black or white foregrounds. |
| C78 | Colour groups | partial | `Props/Harmony.lean` | Fails for the tetradic group of colours with r > g = b, whose third member is a black foreground. Exact for the others, in binary64. |
| C79 | Changing the role or the transparency of a colour | partial | `Props/Names.lean` | Fails: the alpha argument of as_background is ignored if it is 0 or if the colour has the role already. The rest is proved. |
| C80 | Named colours | partial | `Props/Names.lean` | Fails for 'rebeccapurple', which is missing; holds for the other 147 names. |
| C81 | Palette codes | partial | `Props/Names.lean` | Fails for the bare index 4, which becomes a background. The rest is proved. |
| C82 | The as_* methods of spans | partial | `Props/Methods.lean` | Fails for reset_after, which every method sets to true. The rest is proved. |
| C83 | Equality and hashing | partial | `Props/General3.lean`, `Props/Methods.lean` | Fails for hashes: a frozen dataclass hashes the role and the constructor, which == ignores. The rest is proved. |
| C84 | Membership in a span | proved | `Props/Methods.lean` |  |
| C85 | Layout of the debug report | proved | `Props/Report.lean` | Values of the variables are printable, the colours valid; the cursor starts in column 1. |
| C86 | Keys are named after themselves | partial | `Props/Keys.lean` | The code violates the full property: home is named end and end is named home. Proved for all other keys. |
| C87 | Malformed colour descriptions | partial | `Props/General3.lean`, `Props/Malformed.lean` | The code violates the full property: IndexError for some (C87_color says exactly which), others are accepted. |
| C88 | Line breaks in written text | partial | `Props/Breaks.lean`, `Props/Breaks2.lean` | Proved: where every character of a text with line breaks in unstyled spans is stored, and that nothing else changes; C88_exact_partial says where the characters of spans of any style go. C88_staircase_violated and C88_no_break_violated hold for all texts with two lines. Violated: the column is not reset, so that lines form a staircase; a line break in a span with a style is stored in a cell, the text goes on in the same row, and drawing sends a bare line break that displaces the rest. |
| C89 | Representation of spans and colours | partial | `Props/Repr.lean` | Proved for colours (equality ignores the role), strings, and spans that reset, up to the role of their colours. Violated: background colours come back as foreground, reset_after=False is lost, and a span without a set flag gives a syntax error if it has a colour or a link. C89_exact_partial says what the text of any span stands for. |
| C90 | What the command line shows of a key | partial | `Props/Commands.lean` | Proved for --raw, for all keys of the table and for all single characters. Violated for other texts, which are sent to the terminal as they are. |
| C91 | The mouse playground shows what the user does | partial | `Props/Frozen.lean`, `Props/General3.lean`, `Props/Playground.lean` | Proved for all sessions of keys and of mouse events inside the screen: the display is exactly what the session paints. Violated: the middle button and the pasted text 'mouse:' end the loop with an exception, an event below the screen is marked elsewhere and hides every later key, and longer names stay behind shorter ones. |
| C92 | Constructing a terminal | partial | `Props/Session.lean` | The display theorem covers every history of calls on a terminal from its constructor on. Violated: the constructor turns the echo on whatever it was, and with a key typed before the replies the key is lost, the text colour is taken to be the background colour and a reply is left in the input. |
| C93 | Writing a string shows what printing it shows | partial | `Props/General.lean`, `Props/Print.lean`, `Props/PrintLater.lean` | Exact for all lines over the codes of C31 (without 25) that start with a sequence, in a true-colour terminal, on a new screen and after any history that did not scroll. Violated: text in the default colour is always shown in white, and text before the first sequence is lost. |
| C94 | Hyperlinks | partial | `Props/General2.lean`, `Props/Links.lean` | Proved for printing. Violated for writing and drawing (the target of a span has no influence on any screen) and for parsing (no span that yield_from yields has a link, and the end of a link is yielded as text). |
| C95 | Control characters never reach the terminal | partial | `Props/General2.lean`, `Props/Traffic.lean` | Proved for all histories of calls whose texts are printable characters and line breaks and whose colour codes are digits and semicolons. Violated by every control character: it is sent as it is and the text after it is displaced. A redraw sends every text without styles as it is, so that text that sets the title of the terminal does so. |
| C96 | The width of a text is the number of cells it takes | partial | `Props/General.lean`, `Props/Width.lean` | Proved for all strings of printable text, renditions, cursor positions, commands ended by ESC \ and kitty images, in any order and number. Violated for other control sequences (which swallow text up to the next m or H), for commands ended by BEL and for control characters. Characters that take two cells or none are outside the terminal model. |
| C97 | Foregrounds colour the text and backgrounds what is behind it | partial | `Props/General3.lean`, `Props/Pieces2.lean`, `Props/Roles.lean` | Proved for all histories with opaque foregrounds and translucent or opaque backgrounds in their roles and a terminal background in the background role (as Terminal.write passes it). Violated for translucent foregrounds, and by the default terminal background of Screen.write, which has the foreground role. |
| C98 | Stored colours lie between the given ones | proved | `Props/Roles.lean` | Any two intervals per channel (a box) that contain the given colours; over all histories of calls, including scrolling, resizing and raising ones. |
| C99 | Drawing on a terminal with margins | partial | `Props/Bounded.lean`, `Props/LogDraw.lean` | Every history that did not scroll; logs of any length (line k written at row k and drawn), where the display is given exactly. It is wrong for every log longer than the screen: the line break sent with the new line scrolls the terminal too late (C99_log_violated) or, on a taller terminal, the moved rows are not drawn again (C99_log_taller_violated). Missing: other histories that scroll. |

### Violations found in the code

* `C04_evicted_violated`: **C04 violated**: with 129 different spans the entry of the first one has left the cache when the call is repeated. It is computed anew, without the line break that the scroll had put there, and the second call changes a cell.
* `C05_violated`: **C05 violated**: a line that should be cut at the bottom right corner scrolls the screen instead, if its first span ends exactly there: on a 2x1 screen the spans "ab", "c" at (0, 0) push the row of the screen out, and nothing of "c" is dropped without effect.
* `C05_corner_violated`: **C05** (exact condition). On a screen that has not scrolled, every write of two or more spans at an in-bounds cursor whose first span ends exactly in the bottom right corner scrolls, whatever the later spans are; if the second span is empty the call raises `IndexError` and the scrolled state stays. So the corner condition of `C05_placement_partial` cannot be weakened.
* `C101_wide_violated`: C101 is violated by every wide character: what is written after it is shown one column too far to the right, outside of the screen if it is in its last column.
* `C103_hidden_violated`: The opposite of what one expects: a tint below an opaque layer is not hidden by it. The background is that of the opaque layer with the tint over it, for all layers (unless the two backgrounds are equal).
* `C104_no_encoding_violated`: C104 fails: a stream without an encoding cannot be read at all. As soon as a byte arrives it is lost and `TypeError` raised.
* `C106_tint_violated`: **C106 violated** in a bulk write by translucent underlined spaces over underlined spaces: whether the line below is tinted depends on whether the string of the upper space ends with a reset, that is on whether another space of the same span follows.
* `C106_scrolled_violated`: **C106 violated** on a screen that has scrolled by one row: "ab" is written to the last row, "a" and "b" are written to different rows.
* `C106_scrolls_violated`: C106 is violated on every scrolled screen, for every text of at least two characters that fits: written as one span, its character `j ≥ 1` is in its cell; written as a list of one-character spans, the cell is left as it was.
* `C106_corners_violated`: C106 is violated by every text that is too long for the rest of the screen: as one span it is cut off, divided at the last cell it scrolls.
* `C106_singles_violated`: C106 is violated for single spans written to the last cell: given as a list the span is cut off, given as it is it scrolls, if it has more than one character.
* `C106_resets_violated`: C106 is violated by every styled span that does not reset: its last character is stored without the style, while the same character as a piece of its own has it.
* `C106_corner_violated`: **C106 violated** at the end of the screen: a text that does not fit is cut off, its two halves scroll the screen.
* `C106_single_violated`: **C106 violated** by a single span of at least two characters in the bottom right corner: the screen scrolls, which it does not if the span is in a list.
* `C106_reset_violated`: **C106 violated** by `reset_after=False`: the last character of the span is not bold if the span is in a list, and bold if it is written alone.
* `C107_redraw_violated`: **C107 violated**, at every size: after any history that has not scrolled, `print_uv` leaves every cell a block in the default colours, and however often `terminal.draw()` is called after it, that does not change.
* `C108_readme_violated`: **C108 violated**: on every terminal that has rows the first write of the example raises `TypeError`, and nothing is written.
* `C109_mixed_violated`: **C109 violated**: a terminal that is resized between the two queries seems to have a size that it never had. It has 4 columns and 2 rows, then 6 columns and 3 rows; what is read is 4 by 3.
* `C11_violated`: **C11 violated**: "a" is written and drawn, the screen grows by one column and is drawn again: the screen still stores "a" in the top left cell, the terminal shows a blank there.
* `C110_colours_violated`: **C110 violated** for colours, in every document: at the first text that has a colour among its tags (or a text before it) the generator raises, and yields no span for it. So no markup with a colour can be printed.
* `C110_adjacent_violated`: **C110 violated** for tags in two pairs of brackets: neither has an effect; `bold][italic` is taken for one tag, which is reported as unknown.
* `C110_text_violated`: **C110 violated** for text with brackets in it: text in front of a closing bracket is dropped and nothing is reported, and what is in brackets is taken for tags.
* `C110_brackets_violated`: **C110 violated** for tags in two or more pairs of brackets in front of a text, one in each, whatever they are: none has an effect. They are reported as one unknown tag.
* `C110_bracket_violated`: **C110 violated** for every text with a closing bracket in it: all that is in front of the bracket is lost, and nothing is reported.
* `C111_scroll_violated`: **C111 violated** by calls that scroll: a text in the second of two rows and one below it, which scrolls. One after the other they stand in two rows; in one call the first is overwritten.
* `C111_below_violated`: C111 is violated by every pair of characters of which one is written into the window and the other into the row below: one call leaves the first where it is, two calls move it up with its row, and its cell gets what was below it.
* `C112_typed_ahead_violated`: **C112 violated**: whatever is typed between two calls is discarded by the next one. The call then waits: no step of the program is possible until something else is typed (or the alarm of a timeout strikes). And no later call returns it: what is returned is what a program gets for which nothing was typed.
* `C112_alarm_violated`: **C112 violated** by `getch_timeout`: a key that was read when the time ran out is returned neither by this call nor by a later one.
* `C112_gap_violated`: The same within a call: a character that arrives after the last look and before the attributes are restored is discarded by the next call.
* `C113_wait_violated`: **C113 violated**: if the thread is slower than the terminal, the answer is discarded, and the call waits for ever: nothing but a key can happen. For all answers, and whatever the state of the tty.
* `C113_key_violated`: The key that ends the waiting is taken for the answer: the default colour is returned and the key is gone.
* `C113_cut_violated`: An answer that arrives in two parts is cut: the first part is taken for the whole, and the default colour is returned.
* `C113_shown_violated`: The answer of a query with a timeout that comes before the reader listens is discarded and the time runs out; and if the tty echoes, the answer is shown to the user. For all answers.
* `C115_endless_violated`: C115 is violated: if every call of a listener adds a listener (and raises nothing), the emission to any listener never ends.
* `C115_replaced_violated`: C115 is violated: a listener that is added after a `clear` is not called in the same emission.
* `C117_log_violated`: **C117 violated** by every log that is longer than the screen: written by one call, it shows its first lines, where writing each line by a call of its own shows the last ones. So the screens differ wherever these lines do.
* `C118_write_violated`: C118 is violated by every span with a style or a colour: the string is written with four characters more, those of the reset sequence, in the cells after the text.
* `C118_raises_violated`: C118 is violated by every list in which a span follows one with a style or a colour: writing the string raises and writes nothing.
* `C119_drawn_violated`: C119 is violated by what is drawn: after the second screen has scrolled with "c", the first one draws a line break after a "c" of its own, although it has not scrolled, and its next character appears in the wrong row.
* `C119_every_violated`: C119 is violated whenever another screen scrolls with a character: the next time that the character is written to this screen, into a cell that holds another one, a line break is queued with it that would not be there without the other screen.
* `C119_cells_violated`: C119 is violated by the cells, for texts with line breaks: the second screen has scrolled with "c" and a line break, and the first one no longer breaks the line there.
* `C119_forgotten_violated`: C119 is violated by the sizes of the cache: a screen that scrolls with a span and then writes it again draws a line break after it, unless so much was written to another screen in between that the cache has forgotten the span.
* `C12_violated`: **C12 violated**: a fresh 3x2 screen shrunk to 1x1 before its first draw addresses row 2, column 3 of the terminal.
* `C12_clamped_violated`: C12 is violated, and a terminal with margins shows it: when a screen of 3x2 is cut to 3x1 together with the terminal, the changes of the row that is gone are sent all the same, and the terminal puts them in its last row. It shows `abc`; the screen stores three spaces and has nothing left to draw.
* `C12_fresh_violated`: C12 is violated whenever a screen is made smaller before it was first drawn: every cell that is not left is drawn.
* `C121_every_violated`: C121 is violated whenever another screen scrolls with a character: if the character is then written to this screen and something next to it, the second one is not shown at its place, where the terminal goes on showing what was there before, but at the beginning of the next row.
* `C121_violated`: **C121** fails if a screen scrolls: the first screen, which does not, has 'b' in its second column, but after its draw the terminal shows it in the first column of the second screen, which has an 'a' there.
* `C122_hidden_violated`: C122 is violated by every screen that has been drawn: after that, whatever other screens draw at its place and whatever else happens to the terminal, drawing it again changes nothing on the terminal.
* `C124_break_violated`: **C124 violated**: where the text after a line break lands depends on whether the text is bold.
* `C124_every_break_violated`: **C124 is violated** by every text whose first line is not empty and is followed by another one, by every style, and wherever the text fits into its row: without the style the first character of the second line is stored in the row below; with the style, and nothing else changed, that place keeps what it had, and the character is stored in the row of the first line.
* `C125_leak_violated`: **C125 is violated**: a program that logs the same text `n` times on a screen of any size, and never has a larger screen, ends with a cached list for that text that is `n` characters longer than the text: each line that scrolls adds a character that is never given back. So no bound on the size of the screen and on the texts bounds the memory.
* `C13_violated`: **C13 violated**, for every screen and every write: without a cursor `write` raises `TypeError` and changes nothing, and no write (successful or not) moves the cursor.
* `C13_violated_example`: A concrete instance: the text is stored, yet the cursor still is at the origin.
* `C13_unused_violated`: **C13 violated**, in the strongest form: the cursor is never used. In any history of calls, setting the cursor (`terminal.cursor = …`) any number of times in between makes no difference to anything a caller sees, nor to the cells, the pending changes, the size, the scroll offset or the cache at the end.
* `C14_violated`: **C14 violated**: rewriting an unchanged cell with `force_overwrite` returns 0 and queues nothing.
* `C15_violated`: **C15 violated**: a redraw drops the colours. A red "a" is drawn red, redrawn in the default colour.
* `C15_violated_style`: **C15 violated**: nor does a redraw reset the pen after the style of a span that was cut off: the second cell of the row is drawn bold too.
* `C15_colourless_violated`: C15 is violated by every coloured cell: after every history of calls with printable text that did not scroll, a redraw on a clean terminal shows every character in the default colours, whatever colours it was written with.
* `C16_violated_spans`: **C16 violated** (several spans per line): on a 4x2 screen whose offset is 1, the line "a", "b" at logical row 2 (screen row 1) puts "a" into row 1 and drops "b" into row 0: the offset is subtracted once per span.
* `C16_lines_violated`: C16 is violated on every scrolled screen by every line of at least two spans that fits: nothing of the spans after the first one is stored in the row of the line.
* `C16_lost_violated`: **C16 violated** by every line of at least two spans that scrolls (on a screen that has not scrolled before: by every such line in a row below the screen): only its last span is written, and at the start of the line; the others have no effect at all. The offset becomes smaller than it should by as much as the spans are moved up.
* `C16_violated_jump`: **C16 violated** (jumps): "a" in logical row 0 of a 1x2 screen; a line at logical row 5 moves the offset to 4 but the rows by one only, so the row at the top of the screen (logical row 4, never written) shows the blank of logical row 1, and if "b" was in logical row 1, "b".
* `C16_jump_violated`: **C16 violated** by every line that is written more than one row below the window: each row that stays on the screen is then shown below the row that belongs to its logical row, by the number of rows that were skipped.
* `C17_violated`: **C17 violated**, for every screen that has ever scrolled: after a clear, whatever is written at (0, 0) is lost - nothing is stored, 0 is returned.
* `C17_violated_example`: Such screens exist.
* `C18_violated`: **C18 violated**: after the span "a" was written below the bottom, `get_characters` of an equal span returns "a\n" instead of "a" - and each further scroll by an equal span adds another newline.
* `C18_scroll_violated`: C18 is violated by every span with text on every screen: writing it in a row below the window adds a line break to what `get_characters` returns from then on.
* `C19_tints_violated`: **C19 violated** for all opaque texts that are written over a tint of at least nine tenths, in every history and every call without line breaks: not the background of the opaque text is behind the cell, but that of the tint below it.
* `C19_violated`: **C19 violated**: an opaque span written over a translucent one in the same call is tinted: the red background of the last entry is stored as a different colour.
* `C103_hidden_violated`: The opposite of what one expects: a tint below an opaque layer is not hidden by it. The background is that of the opaque layer with the tint over it, for all layers (unless the two backgrounds are equal).
* `C21_invisible_violated`: **C21 violated** for all texts: a character in a translucent colour that is the last to fall on its cell, on a background of its own and over no other translucent background, is stored in the colour of its background, whatever the two colours are.
* `C21_violated`: **C21 violated**: an almost opaque white text (alpha 9/10) on a black background is stored with foreground black — the text disappears — and even as a background colour.
* `C23_violated`: C23 is violated, for every screen and all pending changes: `draw` can raise (when it opens `screen.txt`) such that nothing reaches the stream and the pending changes are lost: the next draw, completed, sends a reset and nothing else.
* `C24_newline_hyperlink_violated`: C24 fails for a hyperlink with a newline: `.` does not match it, so the opening sequence is counted as text.
* `C24_newline_violated`: C24 is violated by every hyperlink with a line break: the target and the sequence around it count as text.
* `C24_odd_color_violated`: C24 fails for a colour made by `from_ansi` from a string with an `H` in it, which `from_ansi` accepts (only the last part is read as a number).
* `C24_code_violated`: C24 is violated by every colour whose code contains one of the letters "m" and "H", which end a sequence: what follows it in the code is counted as text, and so is the "m" at the end of the sequence.
* `C25_reset_violated`: **C25 violated**: no span without `reset_after` is given back, whatever its text, its style and the colour space are.
* `C25_no_reset_violated`: C25 fails without `reset_after`: the parsed span has it set.
* `C25_alpha_violated`: C25 fails for a translucent colour: the code does not carry the alpha value.
* `C26_single_character_violated`: C26 fails for a single styled character without `reset_after`: the character loses its style.
* `C27_odd_color_violated`: C27 fails for a colour made from a malformed code that `from_ansi` accepts: the colour is dark red, the terminal shows bold struck-through text instead.
* `C27_bare_violated`: C27 is violated by every such colour, in every terminal and for every text: no element of `get_characters` shows its character in the colour.
* `C29_reset_after_violated`: C29 fails for `reset_after`: it is not among the copied attributes, so any mutation of a span without reset gives a span with reset.
* `C30_leading_text_violated`: C30 fails whenever plain text comes first: it is dropped, for every such line.
* `C30_trailing_reset_violated`: C30 fails for a rendered span: the reset sequence at its end comes back as text.
* `C31_blink_off_violated`: C31 fails for 25, which stops fast blinking on a terminal but not in the parser.
* `C31_conceal_strike_off_violated`: C31 fails for 28 and 29 (conceal off, strike off), which raise instead.
* `C31_reset_violated`: C31 fails for the reset 0, which is not understood.
* `C32_index_violated`: **C32 violated** for every such code behind any items: the spans before it are read, and then `IndexError` is raised, whatever follows.
* `C32_type_error_violated`: C32 fails: a valid "strike off" raises `TypeError`.
* `C32_index_error_violated`: C32 fails: a colour with a dot in its last part raises `IndexError`.
* `C33_color_lost_violated`: C33 fails for a coloured cell after an uncoloured one with the same character: its colour is lost.
* `C33_reachable_violated`: The same on a reachable screen: a red `x` and a red `b` written on a screen filled with `b`; the second red is lost.
* `C34_export_violated`: **C34 violated** in general: on every reachable screen, a line of one span that is written below the window and leaves the first cell or the last two cells of the row free makes the SVG export raise.
* `C34_scrolled_violated`: C34 fails on a scrolled screen: the new row starts with empty cells.
* `C36_odd_color_violated`: C36 fails for the malformed colour code of `C27_odd_color_violated`.
* `C36_bare_violated`: C36 is violated by every such colour, in every terminal and for every text: no character is shown in it, nor in any other colour.
* `C38_blend_violated`: C38 is violated: blending with a huge alpha raises `OverflowError`.
* `C42_malformed_violated`: C42 is violated for colours made from a bare index, which `from_ansi` accepts as a standard colour: index 1 (red) is emitted as the code 1, which means bold.
* `C42_bare_violated`: C42 is violated by every bare index that is not the code of a standard colour: `from_ansi` makes the colour with this index of the table of 256 colours of it, and in every terminal, however few colours it has, the index itself is sent, which is no code of a colour.
* `C43_closest_violated`: C43 is violated: `(95, 0, 0)`, which is entry 52 of the cube, is emitted as entry 88, which is `(135, 0, 0)`.
* `C44_violated`: C44 is violated: red made from the standard code 31 is emitted as that code in a NO_COLOR terminal, whatever the float computation.
* `C45_range_violated`: C45 is violated in between: every colour of luminance in `(0.1791, 0.25)` has a ratio below 4.5, for instance the grey (118, 118, 118), whose ratio is below 3.5.
* `C45_violated`: C45 is violated: the grey (118, 118, 118) gets a text colour of ratio below 3.5.
* `C46_suffix_violated`: **C46 violated**: in a true-colour terminal no true-colour code with an alpha value is emitted as given.
* `C46_converted_violated`: **C46 violated** for every code that starts with `#`, with or without an alpha value: it is always converted.
* `C46_alpha_violated`: C46 is violated for true-colour codes with an alpha suffix: the suffix is dropped.
* `C46_hash_violated`: C46 is violated for malformed codes that `from_ansi` accepts: one starting with `#` is converted.
* `C47_violated`: C47 is violated: a red used in true colour, then `color_space = STANDARD`.
* `C48_equal_violated`: **C48 violated**: a text whose characters would be stored as cells that are equal (`==`) to what the screen holds is not drawn: nothing is reported or registered, whatever roles and codes its colours have. `==` does not compare those.
* `C48_colours_violated`: **C48 violated**, for every text and all colours that are equal (`==`) but have other roles or codes: after a text was written and drawn in the ones, writing it in the others does nothing, and the next draw prints nothing but the reset.
* `C48_role_violated`: C48 is violated for roles: red as a foreground, drawn; then the same red as a "foreground" of background role. The second write changes nothing and queues nothing, though its code is `48;2;255;0;0` and the one displayed is `38;2;255;0;0`.
* `C48_code_violated`: C48 is violated for codes: the standard red is displayed as the code 31 (whose look the user configures), the same RGB value written directly is not drawn.
* `C50_less_violated`: C50 is violated for `<` and `<=`: against a name they raise `TypeError`, even if the name is known.
* `C53_key_error_violated`: C53 is violated: codes that raise `KeyError` - among them every report of a button that is not supported, which is a mouse report, and every other sequence of three numbers.
* `C53_index_error_violated`: C53 is violated: every code with two semicolons of which the second is the last character raises `IndexError`.
* `C53_not_mouse_violated`: C53 is violated: every pixel size reply is taken for the release of a button (C57).
* `C54_violated`: C54 is violated: pasted text with two semicolons raises, unless it begins with the number of a button.
* `C54_lost_violated`: C54 is violated: what was read before a mouse report is lost.
* `C56_violated`: C56 is violated: "ab" and "c" are read as "cb".
* `C57_answer_violated`: C57 is violated: every answer is taken for a mouse event, so the fallback is returned whatever the terminal answers.
* `C57_violated`: C57 is violated: the terminal says 800 x 600, `resolution` says 1280 x 720.
* `C59_violated`: C59 is violated: an interrupt (or the alarm of `getch_timeout`) that strikes after `setcbreak` took effect and before the `try` leaves the tty in cbreak mode; for an interrupt, `getch` even returns normally.
* `C59_finally_violated`: C59 is violated inside the `finally` as well: a signal that strikes there prevents the restoring.
* `C60_violated`: C60 is violated: if the alarm strikes inside the `finally` of `timeout`, before `signal.alarm(0)`, the timeout escapes from `getch_timeout` although the body had finished, whatever it is and whatever it returned.
* `C61_nested_violated`: C61 is violated for blocks nested in their own kind: in the outer `report_mouse`, after the inner one, mouse reporting is off. (The property excepts only the inner block.)
* `C61_again_violated`: The same for every kind but `batch`, whatever happened before and whatever the inner block does: what is seen right after it, in a block of the same kind around it, is seen with the mode switched off.
* `C61_batch_violated`: C61 is violated for `batch`: its control sequences are not those that switch synchronized updates, so no update is ever pending inside a block (whatever the terminal and the program did before).
* `C62_second_session_violated`: C62 is violated in the second session: the first end of `alt_buffer` restores the title without forgetting that one was set, so the second session does not store it.
* `C62_empty_violated`: C62 is violated for the empty title: it counts as no title, so it is stored as if it were the original one.
* `C62_foreign_violated`: C62 is violated when the title stack is in use: a session that sets no title pops an entry that it did not push.
* `C62_sessions_violated`: C62 is violated by every second session: of any number of sessions that set titles, the first gives the title back, and every later one leaves the last title that it has set.
* `C62_taken_violated`: C62 is violated whenever another program has stored a title: a session without titles takes it.
* `C63_raising_violated`: C63 is violated with a raising listener: the system reports 4×2, then 6×3 (a listener raises), then 4×2 again. The last query returns 4×2 without notifying anyone, and the screen stays 6×3.
* `C64_violated`: C64 is violated, for every such listener: while the terminal has a size different from the one observed before, every size query ends in `RecursionError`, whatever the recursion limit, if one of the listeners starts by querying the size; and the old size is kept, so that later queries fail in the same way.
* `C65_violated`: C65 is violated: a listener that returns a non-empty string stops the emission with `TypeError`; the next listener is not called.
* `C66_bulk_violated`: C66 is violated by `write_bulk`: a non-empty string raises `AttributeError`, whatever the string, the position and the screen, although the same string can be written with `write`.
* `C67_backdrop_violated`: C67 fails for the document: the rectangle behind the screen has no colour, for every colour (the `#` is there twice).
* `C69_strike_violated`: C69 fails: striking text out or concealing it changes nothing in the export, for every span: the same elements, the same declarations.
* `C70_inline_violated`: C70 fails for every span: with `inline_styles=True` the text has no attribute `style`; the declarations are in an attribute `styles`, which SVG does not know.
* `C72_cut_short_violated`: C72 fails: after the first byte of a longer character that does not continue, every ASCII character of the read comes back as the `repr` of its byte, because the decoder keeps the first byte.
* `C72_surrogate_violated`: C72 fails: after the first two bytes of a surrogate, which themselves leave no trace, nothing in the read is decoded any more: every byte that follows, whatever it is, comes back as its `repr`.
* `C73_end_violated`: C73 fails: when the input has ended, the loop of `_read` never ends.
* `C74_f11_f12_violated`: C74 fails: F11 and F12 raise.
* `C74_not_ascii_violated`: C74 fails for every other text: a byte above 127 behind the first, or as the first unless it is `0xE0`, raises `UnicodeDecodeError`.
* `C77_red_violated`: C77 fails: the complement of every pure red tone is black, as a foreground colour.
* `C78_tetradic_violated`: C78 fails for red tones: the third member of the tetradic group is a black foreground, whatever the role and the lightness of the colour.
* `C79_alpha_violated`: C79 is violated otherwise, for every colour: the alpha given is ignored if the colour has the role already, and if it is 0.
* `C80_violated`: C80 is violated for one name of the standard, which raises.
* `C81_bare_violated`: C81 is violated for the bare index 4, which is a background.
* `C82_reset_violated`: C82 fails for `reset_after`, in every method and for every value.
* `C83_color_hash_violated`: C83 is violated for colours: a colour and the same as a background are equal, but there is a hash function of tuples (any that separates these two) for which their hashes differ. The same holds for a colour given directly and by its code.
* `C83_span_hash_violated`: C83 is violated for spans: two equal ones, whose hashes differ if the hashes of their colours do.
* `C83_span_hashes_violated`: C83 is violated for every span with a text colour: there is an equal span with another hash, for all hash functions of tuples without collisions.
* `C86_home_end_violated`: C86 fails: home is called `end`, and end is called `home`.
* `C87_two_channels_violated`: C87 fails: a true-colour code with two channels raises `IndexError`, whatever the channels (of at most 4300 digits) and the role.
* `C87_dots_violated`: C87 fails: two numbers with dots raise `IndexError`.
* `C87_lenient_violated`: C87 fails: malformed codes are accepted. Whatever the two parts in front are, a third one below 256 is taken for an index into the palette.
* `C87_ignored_violated`: C87 fails: what follows the third channel of a true-colour code is ignored.
* `C87_hex_violated`: C87 fails: a hexadecimal description with five digits is accepted.
* `C87_tail_violated`: C87 fails for every true-colour code with something behind its third channel: it is ignored, whatever it is.
* `C87_digits_violated`: C87 fails for every description of five hexadecimal digits: it is accepted, and the last digit alone is the blue channel.
* `C88_column_violated`: **C88 violated**: the text after a line break does not start in the column of the text: writing "ab⏎cd" at (0, 0) of a 4x2 screen puts "cd" under the end of "ab".
* `C88_styled_violated`: **C88 violated**: a line break in a bold span is stored like a character. The text after it stays in the row, and the terminal is sent a bare line break at that place.
* `C88_draw_violated`: **C88 violated**: after that text is written to a screen that has been drawn, and drawn, the terminal shows the "b" elsewhere than it is stored.
* `C88_staircase_violated`: **C88 is violated** by every unstyled text whose first line is not empty and is followed by another one, wherever it fits: the character after the line break is stored under the end of the first line, not under its beginning.
* `C88_no_break_violated`: **C88 is violated** by every line break inside a span with any style: it takes a place like a letter, and what follows goes on in the same row.
* `C89_background_violated`: **C89 violated**: every background colour comes back as a foreground colour, so that the span is not equal to the one it stands for wherever the two have different codes.
* `C89_reset_violated`: **C89 violated**: `reset_after=False` is not shown: what is read back resets, and is not equal.
* `C89_syntax_violated`: **C89 violated**: without a flag that is set, a colour or a link follows two commas, which is a syntax error.
* `C90_unknown_violated`: **C90 violated**: any other text that is not taken for a mouse report is sent to the terminal as it is.
* `C90_f13_violated`: **C90 violated**: for instance the key F13, whose sequence has no name. The terminal takes it for a control sequence: nothing is shown.
* `C91_button_violated`: **C91 violated**: a button that the library has no name for ends the loop with a `KeyError`, for instance the middle one (1).
* `C91_paste_violated`: **C91 violated**: pasting the text "mouse:" ends the loop with a `ValueError`.
* `C91_stale_violated`: **C91 violated**: the name of a key is not erased before the next one is written. After backspace and "a" the first row reads `Keyboard: 'a' kspace'`.
* `C91_below_violated`: **C91 violated**: after the window has grown, the screen is not resized, and an event below the screen is marked in its last row (and the message torn apart by a line break).
* `C91_leftover_violated`: C91 is violated by every key whose name is shorter than that of the key before it (except "c"): the end of the longer text stays on the display, whatever came before.
* `C91_frozen_violated`: C91 is violated after every event below the screen: whatever happened before, no key that is pressed afterwards is ever shown.
* `C92_echo_violated`: C92 is violated: on a tty the constructor turns the echo on, also if it was off.
* `C92_typed_violated`: C92 is violated: if a key was typed before the replies, it is lost, the background is not found out, the foreground colour is the **background** colour of the terminal, and the reply about the foreground is left for the application to read as a key.
* `C93_default_violated`: C93 is violated by all text in the default colour: it is shown in white, on every such line.
* `C93_leading_violated`: C93 is violated by text before the first sequence: of `ab ESC[31m c` only the `c` is shown, in the place of the `a`.
* `C93_lead_violated`: C93 is violated by all text before the first sequence: whatever the screen, writing it is like writing the line without it.
* `C94_screen_violated`: C94 is violated by drawing: the target of a span has no influence on the screen it is written to, hence none on what is drawn. This is so for every span, every position and every screen.
* `C94_parsed_violated`: C94 is violated by parsing: no span that `yield_from` yields has a link, whatever the line.
* `C94_text_violated`: C94 is violated by parsing, also for the text: of a printed span with a link, the end of the link is yielded as text.
* `C94_texts_violated`: C94 is violated by parsing, for the text of every linked span: if it has styles or colours, what follows the text is yielded as text, and otherwise everything that is printed is.
* `C95_sent_violated`: C95 is violated by every control character: written and drawn, it is sent to the terminal as it is.
* `C95_shift_violated`: C95 is violated by every control character also for what is around it: the text after it is not shown in its cell.
* `C95_redraw_violated`: C95 is violated by every redraw: a text without styles is sent as it is, whatever characters it has, between what is sent for the rest of the screen.
* `C95_titles_violated`: So a text that sets the title of the terminal sets it when it is redrawn, whatever the title.
* `C95_title_violated`: In a redraw, which sends the cells without their colours, C95 is violated by whole commands: text that sets the title of the terminal sets it when it is redrawn.
* `C96_other_sequence_violated`: C96 is violated for the other control sequences, also those that the library itself sends: hiding the cursor swallows the text up to the next `m` or `H`.
* `C96_counted_violated`: C96 is violated by every control sequence that does not end with `m` or `H`: if there is no such character in the text that follows it, the sequence counts as text, ...
* `C96_swallowed_violated`: ... and otherwise the text up to the first such character is not counted.
* `C96_bells_violated`: C96 is violated by every command that ends with `BEL`: the terminal shows none of it, and all of it counts as text.
* `C96_bell_violated`: C96 is violated for commands that end with `BEL`, the form in which the library itself sets the title: the command counts as text.
* `C96_control_violated`: C96 is violated for control characters, which show nothing and count as one cell.
* `C97_translucent_violated`: C97 is violated: a translucent foreground over any background is stored as that background, in the background role; the cell is sent with two background codes and the colour of its text is not set.
* `C97_translucents_violated`: C97 is violated by every translucent foreground over an opaque background: the background is stored in both places, so that the text is shown in the default colour of the terminal.
* `C97_default_violated`: C97 is violated by the default terminal background of `Screen.write` and `Screen.write_bulk`, `Color.black()`, which has the foreground role: under a translucent background it makes a stored background that colours the text.
* `C97_defaults_violated`: C97 is violated for every translucent background if the terminal background has the foreground role, as the default argument of `Screen.write` has it: the mixed background is a foreground, so that the text is shown in the colour that should be behind it, and nothing is behind it.
* `C99_log_violated`: **C99 violated** for every log that is longer than the screen, on a terminal that ends with the screen: the last row is blank although the screen stores the last line there, and the lines after the first screenful are shown one row too high. (The line that filled the last row of the first screenful is not shown anywhere.)
* `C99_log_taller_violated`: **C99 violated** for every log that is longer than the screen, on a terminal with rows below the screen: the screen stores the last lines, the terminal shows the first ones, except in the bottom row.
* `C99_scroll_violated`: C99 is violated when the screen has scrolled: the line break that is sent after the new line scrolls the terminal after the line was drawn over the last one. The terminal shows the new line one row too high, the line before it not at all and an empty last row; the screen stores the lines as they should be shown.
* `C99_taller_violated`: C99 is violated on a terminal with more rows than the screen as well: the terminal does not scroll, and the rows that moved in the screen are not drawn again.

## 6. Axioms of the theorems

* none: C109_cursor, C28_split_empty, C55_iter_str, C59_violated, C60_violated, C65_append, C82_attribute_partial, C82_color_partial, C82_reset_violated
* propext: C109_bell, C109_isatty, C109_isatty_closed, C109_mixed_violated, C111_drawn, C112_alarm_violated, C112_exact, C112_gap_violated, C112_nothing_lost_partial, C112_typed_ahead_violated, C115_cleared, C115_replaced_violated, C119_redraw, C29_mutate_partial, C29_reset_after_violated, C56_overwritten, C59_finally_violated, C63_raising_violated, C65_clear, C65_violated, C96_control_violated, attributed_items, attributed_slices
* propext, Classical.choice, Quot.sound: C01_cell_look, C01_draw_shows_screen, C01_draw_shows_screen_true_color, C02_any_cache, C02_draw_after_any, C02_draw_touches_pending, C02_pending_iff_changed, C02_second_draw_is_reset, C03_any_cache, C03_return_counts_changes, C03_zero, C04_any_cache_partial, C04_evicted_violated, C04_write_twice, C05_corner_violated, C05_later, C05_out_of_bounds, C05_placement_partial, C05_violated, C05_write_then_draw, C06_shape, C07_exceptions, C07_raises, C08_any_cache, C08_bulk_eq_sequential, C09_clear, C09_clear_then_draw, C100_shown, C100_stored, C101_narrow_partial, C101_wide_violated, C102_decoder, C102_text, C103_cells_partial, C103_flow_partial, C103_hidden_violated, C103_opaque, C103_scroll_partial, C103_twice, C104_latin1_partial, C104_no_encoding_violated, C104_single_byte_partial, C105_at_most, C105_readme, C105_string, C106_bulk_partial, C106_cells_partial, C106_corner_violated, C106_corners_violated, C106_draw_partial, C106_reset_violated, C106_resets_violated, C106_scrolled_violated, C106_scrolls_violated, C106_show_partial, C106_single, C106_single_partial, C106_single_violated, C106_singles_violated, C106_tint_violated, C106_tints_partial, C107_draw_partial, C107_redraw_violated, C107_stored, C108_demo_partial, C108_readme_violated, C109_cursor_kept, C10_resize, C110_adjacent_violated, C110_bracket_violated, C110_brackets_violated, C110_colours_violated, C110_exact_partial, C110_printed_partial, C110_styles_partial, C110_text, C110_text_violated, C110_unknown_partial, C111_below_violated, C111_many_partial, C111_scroll_violated, C111_two_partial, C112_left, C113_cut_violated, C113_key_violated, C114_asked, C114_printed, C114_runs, C114_words, C115_endless_violated, C116_pairs, C116_read, C116_table, C116_text, C116_utf8, C116_utf8_sends, C116_waits, C117_cells_partial, C117_log_partial, C117_log_violated, C118_exact, C118_iff, C118_raises_violated, C118_write_partial, C118_write_violated, C119_calm_partial, C119_cells_violated, C119_drawn_violated, C119_every_violated, C119_forgotten_violated, C119_scroll_partial, C11_exact_partial, C11_resize_then_draw_partial, C11_violated, C120_cells, C120_shown, C121_every_violated, C121_order_partial, C121_violated, C121_windows_partial, C122_cleared_partial, C122_hidden_violated, C123_cells, C123_history, C123_shown, C123_shown_spaces, C124_break_violated, C124_every_break_violated, C124_layout_partial, C125_counts_partial, C125_leak_violated, C12_clamped_violated, C12_draw_stays_inside_partial, C12_exact_partial, C12_fresh_violated, C12_inside_partial, C13_unused_violated, C13_violated, C13_violated_example, C14_changed_cells_partial, C14_exact_partial, C14_force_ignored, C14_violated, C15_colourless_violated, C15_exact_partial, C15_redraw_partial, C15_violated, C15_violated_style, C16_drift_partial, C16_jump_violated, C16_lines_violated, C16_log_partial, C16_lost_violated, C16_offset_monotone, C16_scroll_partial, C16_violated_jump, C16_violated_spans, C16_window_partial, C17_clear_origin_partial, C17_exact_partial, C17_violated, C17_violated_example, C18_get_characters_partial, C18_lengthened_partial, C18_scroll_violated, C18_violated, C19_last_opaque_wins_partial, C19_scroll_partial, C19_tints_violated, C19_violated, C20_blend_never_raises, C20_stored_colors, C21_invisible_violated, C21_translucent_foreground_partial, C21_violated, C22_render_order, C24_code_violated, C24_newline_hyperlink_violated, C24_newline_violated, C24_odd_color_violated, C24_visual_width_partial, C25_alpha_violated, C25_exact, C25_no_reset_violated, C25_parse_rendered_partial, C25_reset_violated, C26_characters_join_partial, C26_single_character_exact, C26_single_character_violated, C27_bare_violated, C27_cells_self_contained_partial, C27_direct_colors, C27_odd_color_violated, C28_item, C28_split, C30_leading_text_violated, C30_no_text_lost_partial, C30_plain_line, C30_trailing_reset_violated, C31_blink_off_violated, C31_conceal_strike_off_violated, C31_exact_partial, C31_reset_violated, C31_stops_partial, C31_tracks_terminal_partial, C32_exceptions_partial, C32_index_error_violated, C32_index_violated, C32_type_error_violated, C32_where_partial, C33_color_lost_violated, C33_exact_partial, C33_group_partial, C33_reachable_violated, C34_exact_partial, C34_export_violated, C34_rows_partial, C34_scrolled_violated, C34_unscrolled_partial, C35_svg_text_escaped, C36_bare_violated, C36_odd_color_violated, C36_printed_span_partial, C37_eight_digits, C37_round_trip, C37_six_digits, C38_blend_exact_partial, C38_blend_partial, C38_blend_violated, C38_complement, C38_make, C38_parsers, C39_between, C39_clamped, C39_endpoints, C39_monotone, C39_result, C40_darken, C40_lighten, C40_result, C40_returns, C40_saturate, C40_saturate_product, C40_zero, C41_injective, C41_round_trip, C42_bare_violated, C42_malformed_violated, C42_nearest_partial, C42_palette_fixed, C43_closest_violated, C43_cube_partial, C43_exact, C44_grey_partial, C44_monotone_partial, C44_violated, C45_contrast_partial, C45_exact_partial, C45_range_violated, C45_violated, C46_alpha_violated, C46_converted_violated, C46_hash_violated, C46_role, C46_suffix, C46_suffix_violated, C46_verbatim_partial, C47_constant_space, C47_first_use_partial, C47_stale, C47_violated, C48_code_violated, C48_colours_violated, C48_equal_violated, C48_role_violated, C48_written_is_shown_partial, C49_grey, C49_grey_float, C49_integer, C49_integer_float, C49_periodic, C49_valid, C49_valid_float, C50_less_violated, C50_names, C50_order, C50_unknown, C51_colorterm, C51_forced, C51_no_color, C51_not_forced, C51_slate, C51_term, C52_decoded, C52_injective, C53_exact, C53_index_error_violated, C53_key_error_violated, C53_keys, C53_not_mouse_violated, C53_only_reports_partial, C54_ctrl, C54_exceptions, C54_interrupt, C54_lost_violated, C54_mouse, C54_other_partial, C54_raw, C54_table, C54_violated, C55_getch_str, C56_violated, C57_answer_violated, C57_no_answer_partial, C57_violated, C58_always_valid, C58_other, C58_reply, C61_again_violated, C61_all_draws_are_tame, C61_batch_violated, C61_block_undone, C61_draws_are_tame, C61_in_force_partial, C61_modes_undone, C61_nested_violated, C62_empty_violated, C62_exact, C62_foreign_violated, C62_one_session, C62_second_session_violated, C62_sessions_violated, C62_taken_violated, C62_title_restored_partial, C65_call_partial, C65_once_in_order, C65_raise, C65_stops_partial, C66_bulk_never_ok, C66_bulk_partial, C66_bulk_violated, C66_write, C66_write_no_cursor, C67_backdrop_violated, C67_cells_partial, C67_export_partial, C67_reachable_partial, C68_stylesheet, C69_strike_violated, C69_styles_partial, C70_inline_violated, C71_characters, C71_whole_text, C72_cut_short_violated, C72_stray_partial, C72_surrogate_violated, C73_character_partial, C73_end_violated, C74_exact, C74_f11_f12_violated, C74_keys_partial, C74_not_ascii_violated, C74_text_partial, C75_no_answer, C75_supported_iff, C76_lightness, C77_blend_complement, C77_grey, C77_mirror_partial, C77_red_violated, C78_analogous, C78_tetradic_partial, C78_tetradic_violated, C78_triadic, C79_code, C80_alpha_partial, C80_name_partial, C80_unknown, C80_violated, C81_bare_partial, C81_bare_violated, C81_eight_bit, C81_index_range, C81_standard, C82_description, C82_look, C83_color_equivalence, C83_color_hash_violated, C83_equal_spans, C83_span_equivalence, C83_span_hash_violated, C83_span_hashes_violated, C84_contains, C85_bar, C85_fits, C85_rows, C85_styles, C86_arrows, C86_home_end_violated, C86_named_partial, C86_plain, C86_typed, C86_unique, C87_color, C87_digits_violated, C87_dots_violated, C87_exceptions_partial, C87_from_ansi, C87_hex_violated, C87_ignored_violated, C87_lenient_violated, C87_tail_violated, C87_two_channels_violated, C88_column_violated, C88_draw_violated, C88_exact_partial, C88_lines_partial, C88_no_break_violated, C88_no_scroll, C88_staircase_violated, C88_styled_violated, C89_background_violated, C89_color, C89_exact_partial, C89_reset_violated, C89_same_span, C89_span_partial, C89_string, C89_syntax_violated, C90_f13_violated, C90_named_partial, C90_raw, C90_size, C90_unknown_violated, C91_below_violated, C91_button_violated, C91_end, C91_frozen_violated, C91_leftover_violated, C91_mark, C91_paste_violated, C91_session_partial, C91_stale_violated, C92_answers, C92_calls, C92_construct_partial, C92_display, C92_echo_violated, C92_no_tty, C92_returns, C92_typed_violated, C93_coloured_partial, C93_default_violated, C93_later_partial, C93_lead_violated, C93_leading_violated, C93_line_partial, C94_parsed_violated, C94_printed_partial, C94_screen_violated, C94_text_violated, C94_texts_violated, C95_redraw_violated, C95_sent_partial, C95_sent_violated, C95_shift_violated, C95_title_violated, C95_titles_violated, C96_bell_violated, C96_bells_violated, C96_counted_violated, C96_other_sequence_violated, C96_swallowed_violated, C96_width_partial, C97_default_violated, C97_defaults_violated, C97_roles_partial, C97_translucent_violated, C97_translucents_violated, C98_between, C99_log_partial, C99_log_taller_violated, C99_log_violated, C99_margins_partial, C99_scroll_violated, C99_taller_violated, normalize_exact
* propext, Quot.sound: C109_dimensions, C109_dimensions_partial, C113_answer_partial, C113_exact, C113_not_shown, C113_shown_violated, C113_wait_violated, C115_added, C115_ends_partial, C115_unchanged, C12_violated, C23_partial, C23_violated, C28_slice, C38_roles, C55_eq, C56_exact, C56_spaced_partial, C59_getch_restores_partial, C59_getch_timeout_partial, C60_timeout_partial, C63_history_partial, C63_raising, C64_argument_partial, C64_violated, C65_cases, C79_alpha_partial, C79_alpha_violated, C79_role, C83_hash_partial
