import Verif.Py.Str

/-!
# Key tables (`slate/key_names.py`)

Generated by `tools/gentables.py` from the text of the source file.
-/

namespace Slate

/-- `POSIX_KEY_NAMES` (`key_names.py:3-85`). -/
def posixKeyNames : List (Str × List Str) := [
  ("\x1b".toList, ["esc".toList, "escape".toList]),
  ("\x1b[A".toList, ["up".toList, "arrow-up".toList]),
  ("\x1b[B".toList, ["down".toList, "arrow-down".toList]),
  ("\x1b[C".toList, ["right".toList, "arrow-right".toList]),
  ("\x1b[D".toList, ["left".toList, "arrow-left".toList]),
  ("\x1b[1;2A".toList, ["shift-up".toList, "shift-arrow-up".toList]),
  ("\x1b[1;2B".toList, ["shift-down".toList, "shift-arrow-down".toList]),
  ("\x1b[1;2C".toList, ["shift-right".toList, "shift-arrow-right".toList]),
  ("\x1b[1;2D".toList, ["shift-left".toList, "shift-arrow-left".toList]),
  ("\x1b[1;3A".toList, ["alt-up".toList, "alt-arrow-up".toList]),
  ("\x1b[1;3B".toList, ["alt-down".toList, "alt-arrow-down".toList]),
  ("\x1b[1;3C".toList, ["alt-right".toList, "alt-arrow-right".toList]),
  ("\x1b[1;3D".toList, ["alt-left".toList, "alt-arrow-left".toList]),
  ("\x1b[1;4A".toList, ["alt-shift-up".toList, "alt-shift-arrow-up".toList]),
  ("\x1b[1;4B".toList, ["alt-shift-down".toList, "alt-shift-arrow-down".toList]),
  ("\x1b[1;4C".toList, ["alt-shift-right".toList, "alt-shift-arrow-right".toList]),
  ("\x1b[1;4D".toList, ["alt-shift-left".toList, "alt-shift-arrow-left".toList]),
  ("\x1b[1;6A".toList, ["ctrl-shift-up".toList, "ctrl-shift-arrow-up".toList]),
  ("\x1b[1;6B".toList, ["ctrl-shift-down".toList, "ctrl-shift-arrow-down".toList]),
  ("\x7f".toList, ["backspace".toList]),
  ("\x1b\x7f".toList, ["alt-backspace".toList]),
  ("\x01".toList, ["ctrl-a".toList]),
  ("\x02".toList, ["ctrl-b".toList]),
  ("\x03".toList, ["ctrl-c".toList]),
  ("\x04".toList, ["ctrl-d".toList]),
  ("\x05".toList, ["ctrl-e".toList]),
  ("\x06".toList, ["ctrl-f".toList]),
  ("\x07".toList, ["ctrl-g".toList]),
  ("\x08".toList, ["ctrl-backspace".toList, "ctrl-h".toList]),
  ("\x09".toList, ["tab".toList, "ctrl-i".toList]),
  ("\x0a".toList, ["return".toList, "ctrl-j".toList]),
  ("\x0b".toList, ["ctrl-k".toList]),
  ("\x0c".toList, ["ctrl-l".toList]),
  ("\x0d".toList, ["ctrl-m".toList]),
  ("\x0e".toList, ["ctrl-n".toList]),
  ("\x0f".toList, ["ctrl-o".toList]),
  ("\x10".toList, ["ctrl-p".toList]),
  ("\x11".toList, ["ctrl-q".toList]),
  ("\x12".toList, ["ctrl-r".toList]),
  ("\x13".toList, ["ctrl-s".toList]),
  ("\x14".toList, ["ctrl-t".toList]),
  ("\x15".toList, ["ctrl-u".toList]),
  ("\x16".toList, ["ctrl-v".toList]),
  ("\x17".toList, ["ctrl-w".toList]),
  ("\x18".toList, ["ctrl-x".toList]),
  ("\x19".toList, ["ctrl-y".toList]),
  ("\x1a".toList, ["ctrl-z".toList]),
  ("\x1b[1;5A".toList, ["ctrl-up".toList]),
  ("\x1b[1;5B".toList, ["ctrl-down".toList]),
  ("\x1b[1;5C".toList, ["ctrl-right".toList]),
  ("\x1b[1;5D".toList, ["ctrl-left".toList]),
  ("\x1b[H".toList, ["end".toList]),
  ("\x1b[F".toList, ["home".toList]),
  ("\x1b[2~".toList, ["insert".toList]),
  ("\x1b[3~".toList, ["delete".toList]),
  ("\x1b[Z".toList, ["shift-tab".toList]),
  ("\x1b[11~".toList, ["F1".toList]),
  ("\x1bOP".toList, ["F1".toList]),
  ("\x1b[12~".toList, ["F2".toList]),
  ("\x1bOQ".toList, ["F2".toList]),
  ("\x1b[13~".toList, ["F3".toList]),
  ("\x1bOR".toList, ["F3".toList]),
  ("\x1b[14~".toList, ["F4".toList]),
  ("\x1bOS".toList, ["F4".toList]),
  ("\x1b[15~".toList, ["F5".toList]),
  ("\x1b[17~".toList, ["F6".toList]),
  ("\x1b[18~".toList, ["F7".toList]),
  ("\x1b[19~".toList, ["F8".toList]),
  ("\x1b[20~".toList, ["F9".toList]),
  ("\x1b[21~".toList, ["F10".toList]),
  ("\x1b[23~".toList, ["F11".toList]),
  ("\x1b[24~".toList, ["F12".toList])]

/-- `NT_KEY_NAMES` (`key_names.py:87-107`). -/
def ntKeyNames : List (Str × List Str) := [
  ("\x1b".toList, ["esc".toList]),
  ("\x1bK".toList, ["left".toList]),
  ("\x1bM".toList, ["right".toList]),
  ("\x1bH".toList, ["up".toList]),
  ("\x1bP".toList, ["down".toList]),
  ("\x0d".toList, ["return".toList]),
  ("\x08".toList, ["backspace".toList]),
  ("\x00;".toList, ["f1".toList]),
  ("\x00<".toList, ["f2".toList]),
  ("\x00=".toList, ["f3".toList]),
  ("\x00>".toList, ["f4".toList]),
  ("\x00?".toList, ["f5".toList]),
  ("\x00@".toList, ["f6".toList]),
  ("\x00A".toList, ["f7".toList]),
  ("\x00B".toList, ["f8".toList]),
  ("\x00C".toList, ["f9".toList]),
  ("\x00D".toList, ["f10".toList]),
  ("\xe0\x85".toList, ["f11".toList]),
  ("\xe0\x86".toList, ["f12".toList])]

end Slate
