import Verif.Py.Str

/-!
# Colour tables (`slate/color_info.py`)

Generated by `tools/gentables.py` from the text of the source file.
-/

namespace Slate

/-- `COLOR_TABLE` (`color_info.py:8-265`). -/
def colorTable : List (Nat × Nat × Nat) := [
  (0, 0, 0), (170, 0, 0), (0, 170, 0), (170, 85, 0), (0, 0, 170), (170, 0, 170),
  (0, 170, 170), (170, 170, 170), (85, 85, 85), (255, 85, 85), (85, 255, 85), (255, 255, 85),
  (85, 85, 255), (255, 85, 255), (85, 255, 255), (255, 255, 255), (0, 0, 0), (0, 0, 95),
  (0, 0, 135), (0, 0, 175), (0, 0, 215), (0, 0, 255), (0, 95, 0), (0, 95, 95),
  (0, 95, 135), (0, 95, 175), (0, 95, 215), (0, 95, 255), (0, 135, 0), (0, 135, 95),
  (0, 135, 135), (0, 135, 175), (0, 135, 215), (0, 135, 255), (0, 175, 0), (0, 175, 95),
  (0, 175, 135), (0, 175, 175), (0, 175, 215), (0, 175, 255), (0, 215, 0), (0, 215, 95),
  (0, 215, 135), (0, 215, 175), (0, 215, 215), (0, 215, 255), (0, 255, 0), (0, 255, 95),
  (0, 255, 135), (0, 255, 175), (0, 255, 215), (0, 255, 255), (95, 0, 0), (95, 0, 95),
  (95, 0, 135), (95, 0, 175), (95, 0, 215), (95, 0, 255), (95, 95, 0), (95, 95, 95),
  (95, 95, 135), (95, 95, 175), (95, 95, 215), (95, 95, 255), (95, 135, 0), (95, 135, 95),
  (95, 135, 135), (95, 135, 175), (95, 135, 215), (95, 135, 255), (95, 175, 0), (95, 175, 95),
  (95, 175, 135), (95, 175, 175), (95, 175, 215), (95, 175, 255), (95, 215, 0), (95, 215, 95),
  (95, 215, 135), (95, 215, 175), (95, 215, 215), (95, 215, 255), (95, 255, 0), (95, 255, 95),
  (95, 255, 135), (95, 255, 175), (95, 255, 215), (95, 255, 255), (135, 0, 0), (135, 0, 95),
  (135, 0, 135), (135, 0, 175), (135, 0, 215), (135, 0, 255), (135, 95, 0), (135, 95, 95),
  (135, 95, 135), (135, 95, 175), (135, 95, 215), (135, 95, 255), (135, 135, 0), (135, 135, 95),
  (135, 135, 135), (135, 135, 175), (135, 135, 215), (135, 135, 255), (135, 175, 0), (135, 175, 95),
  (135, 175, 135), (135, 175, 175), (135, 175, 215), (135, 175, 255), (135, 215, 0), (135, 215, 95),
  (135, 215, 135), (135, 215, 175), (135, 215, 215), (135, 215, 255), (135, 255, 0), (135, 255, 95),
  (135, 255, 135), (135, 255, 175), (135, 255, 215), (135, 255, 255), (175, 0, 0), (175, 0, 95),
  (175, 0, 135), (175, 0, 175), (175, 0, 215), (175, 0, 255), (175, 95, 0), (175, 95, 95),
  (175, 95, 135), (175, 95, 175), (175, 95, 215), (175, 95, 255), (175, 135, 0), (175, 135, 95),
  (175, 135, 135), (175, 135, 175), (175, 135, 215), (175, 135, 255), (175, 175, 0), (175, 175, 95),
  (175, 175, 135), (175, 175, 175), (175, 175, 215), (175, 175, 255), (175, 215, 0), (175, 215, 95),
  (175, 215, 135), (175, 215, 175), (175, 215, 215), (175, 215, 255), (175, 255, 0), (175, 255, 95),
  (175, 255, 135), (175, 255, 175), (175, 255, 215), (175, 255, 255), (215, 0, 0), (215, 0, 95),
  (215, 0, 135), (215, 0, 175), (215, 0, 215), (215, 0, 255), (215, 95, 0), (215, 95, 95),
  (215, 95, 135), (215, 95, 175), (215, 95, 215), (215, 95, 255), (215, 135, 0), (215, 135, 95),
  (215, 135, 135), (215, 135, 175), (215, 135, 215), (215, 135, 255), (215, 175, 0), (215, 175, 95),
  (215, 175, 135), (215, 175, 175), (215, 175, 215), (215, 175, 255), (215, 215, 0), (215, 215, 95),
  (215, 215, 135), (215, 215, 175), (215, 215, 215), (215, 215, 255), (215, 255, 0), (215, 255, 95),
  (215, 255, 135), (215, 255, 175), (215, 255, 215), (215, 255, 255), (255, 0, 0), (255, 0, 95),
  (255, 0, 135), (255, 0, 175), (255, 0, 215), (255, 0, 255), (255, 95, 0), (255, 95, 95),
  (255, 95, 135), (255, 95, 175), (255, 95, 215), (255, 95, 255), (255, 135, 0), (255, 135, 95),
  (255, 135, 135), (255, 135, 175), (255, 135, 215), (255, 135, 255), (255, 175, 0), (255, 175, 95),
  (255, 175, 135), (255, 175, 175), (255, 175, 215), (255, 175, 255), (255, 215, 0), (255, 215, 95),
  (255, 215, 135), (255, 215, 175), (255, 215, 215), (255, 215, 255), (255, 255, 0), (255, 255, 95),
  (255, 255, 135), (255, 255, 175), (255, 255, 215), (255, 255, 255), (8, 8, 8), (18, 18, 18),
  (28, 28, 28), (38, 38, 38), (48, 48, 48), (58, 58, 58), (68, 68, 68), (78, 78, 78),
  (88, 88, 88), (98, 98, 98), (108, 108, 108), (118, 118, 118), (128, 128, 128), (138, 138, 138),
  (148, 148, 148), (158, 158, 158), (168, 168, 168), (178, 178, 178), (188, 188, 188), (198, 198, 198),
  (208, 208, 208), (218, 218, 218), (228, 228, 228), (238, 238, 238)]

/-- `NAMED_COLORS` (`color_info.py:268-427`): `CSS_COLORS` followed by Slate's own names.
Keys are distinct, so list lookup is dictionary lookup. -/
def namedColors : List (Str × Str) := [
  ("aliceblue".toList, "#f0f8ff".toList),
  ("antiquewhite".toList, "#faebd7".toList),
  ("aqua".toList, "#00ffff".toList),
  ("aquamarine".toList, "#7fffd4".toList),
  ("azure".toList, "#f0ffff".toList),
  ("beige".toList, "#f5f5dc".toList),
  ("bisque".toList, "#ffe4c4".toList),
  ("black".toList, "#000000".toList),
  ("blanchedalmond".toList, "#ffebcd".toList),
  ("blue".toList, "#0000ff".toList),
  ("blueviolet".toList, "#8a2be2".toList),
  ("brown".toList, "#a52a2a".toList),
  ("burlywood".toList, "#deb887".toList),
  ("cadetblue".toList, "#5f9ea0".toList),
  ("chartreuse".toList, "#7fff00".toList),
  ("chocolate".toList, "#d2691e".toList),
  ("coral".toList, "#ff7f50".toList),
  ("cornflowerblue".toList, "#6495ed".toList),
  ("cornsilk".toList, "#fff8dc".toList),
  ("crimson".toList, "#dc143c".toList),
  ("cyan".toList, "#00ffff".toList),
  ("darkblue".toList, "#00008b".toList),
  ("darkcyan".toList, "#008b8b".toList),
  ("darkgoldenrod".toList, "#b8860b".toList),
  ("darkgray".toList, "#a9a9a9".toList),
  ("darkgrey".toList, "#a9a9a9".toList),
  ("darkgreen".toList, "#006400".toList),
  ("darkkhaki".toList, "#bdb76b".toList),
  ("darkmagenta".toList, "#8b008b".toList),
  ("darkolivegreen".toList, "#556b2f".toList),
  ("darkorange".toList, "#ff8c00".toList),
  ("darkorchid".toList, "#9932cc".toList),
  ("darkred".toList, "#8b0000".toList),
  ("darksalmon".toList, "#e9967a".toList),
  ("darkseagreen".toList, "#8fbc8f".toList),
  ("darkslateblue".toList, "#483d8b".toList),
  ("darkslategray".toList, "#2f4f4f".toList),
  ("darkslategrey".toList, "#2f4f4f".toList),
  ("darkturquoise".toList, "#00ced1".toList),
  ("darkviolet".toList, "#9400d3".toList),
  ("deeppink".toList, "#ff1493".toList),
  ("deepskyblue".toList, "#00bfff".toList),
  ("dimgray".toList, "#696969".toList),
  ("dimgrey".toList, "#696969".toList),
  ("dodgerblue".toList, "#1e90ff".toList),
  ("firebrick".toList, "#b22222".toList),
  ("floralwhite".toList, "#fffaf0".toList),
  ("forestgreen".toList, "#228b22".toList),
  ("fuchsia".toList, "#ff00ff".toList),
  ("gainsboro".toList, "#dcdcdc".toList),
  ("ghostwhite".toList, "#f8f8ff".toList),
  ("gold".toList, "#ffd700".toList),
  ("goldenrod".toList, "#daa520".toList),
  ("gray".toList, "#808080".toList),
  ("grey".toList, "#808080".toList),
  ("green".toList, "#008000".toList),
  ("greenyellow".toList, "#adff2f".toList),
  ("honeydew".toList, "#f0fff0".toList),
  ("hotpink".toList, "#ff69b4".toList),
  ("indianred".toList, "#cd5c5c".toList),
  ("indigo".toList, "#4b0082".toList),
  ("ivory".toList, "#fffff0".toList),
  ("khaki".toList, "#f0e68c".toList),
  ("lavender".toList, "#e6e6fa".toList),
  ("lavenderblush".toList, "#fff0f5".toList),
  ("lawngreen".toList, "#7cfc00".toList),
  ("lemonchiffon".toList, "#fffacd".toList),
  ("lightblue".toList, "#add8e6".toList),
  ("lightcoral".toList, "#f08080".toList),
  ("lightcyan".toList, "#e0ffff".toList),
  ("lightgoldenrodyellow".toList, "#fafad2".toList),
  ("lightgray".toList, "#d3d3d3".toList),
  ("lightgrey".toList, "#d3d3d3".toList),
  ("lightgreen".toList, "#90ee90".toList),
  ("lightpink".toList, "#ffb6c1".toList),
  ("lightsalmon".toList, "#ffa07a".toList),
  ("lightseagreen".toList, "#20b2aa".toList),
  ("lightskyblue".toList, "#87cefa".toList),
  ("lightslategray".toList, "#778899".toList),
  ("lightslategrey".toList, "#778899".toList),
  ("lightsteelblue".toList, "#b0c4de".toList),
  ("lightyellow".toList, "#ffffe0".toList),
  ("lime".toList, "#00ff00".toList),
  ("limegreen".toList, "#32cd32".toList),
  ("linen".toList, "#faf0e6".toList),
  ("magenta".toList, "#ff00ff".toList),
  ("maroon".toList, "#800000".toList),
  ("mediumaquamarine".toList, "#66cdaa".toList),
  ("mediumblue".toList, "#0000cd".toList),
  ("mediumorchid".toList, "#ba55d3".toList),
  ("mediumpurple".toList, "#9370db".toList),
  ("mediumseagreen".toList, "#3cb371".toList),
  ("mediumslateblue".toList, "#7b68ee".toList),
  ("mediumspringgreen".toList, "#00fa9a".toList),
  ("mediumturquoise".toList, "#48d1cc".toList),
  ("mediumvioletred".toList, "#c71585".toList),
  ("midnightblue".toList, "#191970".toList),
  ("mintcream".toList, "#f5fffa".toList),
  ("mistyrose".toList, "#ffe4e1".toList),
  ("moccasin".toList, "#ffe4b5".toList),
  ("navajowhite".toList, "#ffdead".toList),
  ("navy".toList, "#000080".toList),
  ("oldlace".toList, "#fdf5e6".toList),
  ("olive".toList, "#808000".toList),
  ("olivedrab".toList, "#6b8e23".toList),
  ("orange".toList, "#ffa500".toList),
  ("orangered".toList, "#ff4500".toList),
  ("orchid".toList, "#da70d6".toList),
  ("palegoldenrod".toList, "#eee8aa".toList),
  ("palegreen".toList, "#98fb98".toList),
  ("paleturquoise".toList, "#afeeee".toList),
  ("palevioletred".toList, "#db7093".toList),
  ("papayawhip".toList, "#ffefd5".toList),
  ("peachpuff".toList, "#ffdab9".toList),
  ("peru".toList, "#cd853f".toList),
  ("pink".toList, "#ffc0cb".toList),
  ("plum".toList, "#dda0dd".toList),
  ("powderblue".toList, "#b0e0e6".toList),
  ("purple".toList, "#800080".toList),
  ("red".toList, "#ff0000".toList),
  ("rosybrown".toList, "#bc8f8f".toList),
  ("royalblue".toList, "#4169e1".toList),
  ("saddlebrown".toList, "#8b4513".toList),
  ("salmon".toList, "#fa8072".toList),
  ("sandybrown".toList, "#f4a460".toList),
  ("seagreen".toList, "#2e8b57".toList),
  ("seashell".toList, "#fff5ee".toList),
  ("sienna".toList, "#a0522d".toList),
  ("silver".toList, "#c0c0c0".toList),
  ("skyblue".toList, "#87ceeb".toList),
  ("slateblue".toList, "#6a5acd".toList),
  ("slategray".toList, "#708090".toList),
  ("slategrey".toList, "#708090".toList),
  ("snow".toList, "#fffafa".toList),
  ("springgreen".toList, "#00ff7f".toList),
  ("steelblue".toList, "#4682b4".toList),
  ("tan".toList, "#d2b48c".toList),
  ("teal".toList, "#008080".toList),
  ("thistle".toList, "#d8bfd8".toList),
  ("tomato".toList, "#ff6347".toList),
  ("turquoise".toList, "#40e0d0".toList),
  ("violet".toList, "#ee82ee".toList),
  ("wheat".toList, "#f5deb3".toList),
  ("white".toList, "#ffffff".toList),
  ("whitesmoke".toList, "#f5f5f5".toList),
  ("yellow".toList, "#ffff00".toList),
  ("yellowgreen".toList, "#9acd32".toList),
  ("slate".toList, "#717e8d".toList),
  ("zenith".toList, "#4a7a9f".toList),
  ("celadon".toList, "#afe1af".toList),
  ("carmine".toList, "#d70040".toList)]

end Slate
