import Verif.Props.Draw
import Verif.Props.Write
import Verif.Props.Corner
import Verif.Props.Bulk
import Verif.Props.Shape
import Verif.Props.Scroll
import Verif.Props.Redraw
import Verif.Props.Span
import Verif.Props.Parse
import Verif.Props.ParseStops
import Verif.Props.ParseIndex
import Verif.Props.Group
import Verif.Props.GroupLooks
import Verif.Props.Blend
import Verif.Props.BlendLimit
import Verif.Props.Codes
import Verif.Props.Palette
import Verif.Props.Hue
import Verif.Props.HueFloat
import Verif.Props.Keys
import Verif.Props.Luminance
import Verif.Props.Cache
import Verif.Props.Mouse
import Verif.Props.Input
import Verif.Props.Tty
import Verif.Props.Blocks
import Verif.Props.Event
import Verif.Props.Size
import Verif.Props.Terminal
import Verif.Props.Svg
import Verif.Props.Decode
import Verif.Props.Harmony
import Verif.Props.Names
import Verif.Props.Malformed
import Verif.Props.Methods
import Verif.Props.Report
import Verif.Props.Breaks
import Verif.Props.Breaks2
import Verif.Props.Repr
import Verif.Props.Commands
import Verif.Props.Playground
import Verif.Props.Links
import Verif.Props.Traffic
import Verif.Props.Session
import Verif.Props.Print
import Verif.Check.RepoTests
import Verif.Check.Builtins
import Verif.Props.Width
import Verif.Props.Roles
import Verif.Spec.Bounded
import Verif.Lemmas.Bounded
import Verif.Props.Bounded
import Verif.Lemmas.LogDraw
import Verif.Props.LogDraw
import Verif.Lemmas.Forget
import Verif.Props.Often
import Verif.Spec.Wide
import Verif.Props.Wide
import Verif.Spec.Sized
import Verif.Props.Sized
import Verif.Props.Utf8
import Verif.Props.Layers
import Verif.Props.Poison
import Verif.Props.Leak
import Verif.Props.Drift
import Verif.Props.Codec
import Verif.Props.Count
import Verif.Props.Pieces
import Verif.Props.GroupExact
import Verif.Model.Resize
import Verif.Props.Resize
import Verif.Model.Readme
import Verif.Props.Readme
import Verif.Model.Properties
import Verif.Props.Properties
import Verif.Model.Tags
import Verif.Props.Tags
import Verif.Props.Tags2
import Verif.Props.Apart
import Verif.Model.Wire
import Verif.Props.Wire
import Verif.Lemmas.AnyCache
import Verif.Lemmas.CacheOn
import Verif.Props.AnyCache
import Verif.Props.Invisible
import Verif.Props.ParseExact
import Verif.Props.Suffix
import Verif.Props.Unseen
import Verif.Model.Cli
import Verif.Props.Cli
import Verif.Model.LiveEvent
import Verif.Props.LiveEvent
import Verif.Model.Decoder
import Verif.Props.Decoder
import Verif.Props.BulkScroll
import Verif.Props.Reparse
import Verif.Props.Titles
import Verif.Props.Cleared
import Verif.Props.Shrink
import Verif.Props.General
import Verif.Props.General2
import Verif.Props.General3
import Verif.Props.Flow
import Verif.Props.Hidden
import Verif.Props.Pieces2
import Verif.Props.Pieces3
import Verif.Props.Process
import Verif.Props.PrintLater
import Verif.Props.Frozen
import Verif.Props.Shared
import Verif.Props.Apart2
import Verif.Props.BareIndex
import Verif.Props.OddCode
import Verif.Spec.Viewport
import Verif.Props.Viewport
import Verif.Props.Viewport2
import Verif.Spec.Desktop
import Verif.Props.Desktop
import Verif.Props.Desktop2
import Verif.Props.Desktop3
import Verif.Props.Overlap
import Verif.Props.AnySpace
import Verif.Props.AnySpace2
import Verif.Props.Layout
import Verif.Props.Memory
import Verif.Props.Layout2
import Verif.Props.AfterRedraw
