import Verif.Spec.Emulator
import Verif.Spec.Input
import Verif.Model.KeyNames
import Verif.Py.Repr

/-!
# What the mouse playground should show

A canvas holds the characters written so far, by row-major position.
-/

namespace Slate
open Py

namespace Playground

/-- What was written, by row-major position. -/
abbrev Canvas := Nat → Option Char

/-- Nothing written. -/
def Canvas.empty : Canvas := fun _ => none

/-- Text written from position `i` on. -/
def Canvas.put (t : Str) (i : Nat) (cv : Canvas) : Canvas :=
  fun k => if i ≤ k ∧ k < i + t.length then t[k - i]? else cv k

/-- What a user does: press a key (with a name), or use the mouse (button code, column and row counted from
1, pressed or released). -/
inductive Act where
  | key (name : Str)
  | mouse (b x y : Nat) (pressed : Bool)

/-- The name of a mouse event with its position. -/
def mouseName (b x y : Nat) (pressed : Bool) (e : MouseEv) : Str :=
  "mouse:".toList ++ (mouseModifiers b ++ e.name pressed) ++ ['@'] ++ dec x ++ [';'] ++ dec y

/-- What an act does to the canvas of a screen of the given width: a key is named in the first row, "c" also
clears the canvas; a mouse event is named in the second row, and marked by an X where it happened. `quoted` puts a
name in quotes. -/
def Act.paint (quoted : Str → Str) (width : Nat) (cv : Canvas) : Act → Canvas
  | .key name =>
    (if name = ['c'] then Canvas.empty else cv).put (" Keyboard: ".toList ++ quoted name ++ [' ']) 0
  | .mouse b x y pressed =>
    match mouseEv b with
    | none => cv
    | some e => (cv.put (" Mouse: ".toList ++ quoted (mouseName b x y pressed e) ++ [' ']) width).put ['X']
        ((y - 1) * width + (x - 1))

/-- The text that the terminal sends for an act on a screen of the given size: a text of the key table, or any other
text that is not read as a mouse event, or a mouse report inside the screen. The key that ends the loop is left out. -/
def Act.Sent (width height : Nat) (s : Str) : Act → Prop
  | .key name =>
    name ≠ "ctrl-c".toList ∧
    ((∃ names, (s, name :: names) ∈ posixKeyNames) ∨
      (s = name ∧ s ≠ [] ∧ (∀ p ∈ posixKeyNames, p.1 ≠ s) ∧
        (∀ t, AfterLast ['\x1b'] s t → t.count ';' ≠ 2) ∧ ¬ "mouse:".toList <+: s))
  | .mouse b x y pressed =>
    s = mouseReport b x y pressed ∧ (mouseEv b).isSome ∧ 1 ≤ x ∧ x ≤ width ∧ 1 ≤ y ∧ y ≤ height

/-- How a position of the canvas looks: blank, or the character in the given rendition. -/
def look (written : Term.Attr) : Option Char → Term.Glyph
  | none => { ch := ' ', attr := Term.Attr.clean }
  | some c => { ch := c, attr := written }

end Playground
end Slate
