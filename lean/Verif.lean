import Verif.Model.Basic
import Verif.Model.Multi
import Verif.Model.Oer
import Verif.Model.Raster
import Verif.Model.Font
import Verif.Model.Graphic
import Verif.Model.Config
import Verif.Model.Sign
import Verif.Model.Tfon
import Verif.Model.Pattern
import Verif.Model.Render
import Verif.Tests.Multi
import Verif.Tests.Fonts
import Verif.Tests.Pattern
import Verif.Tests.Render
import Verif.Spec.Tokens
import Verif.Lemmas.Tokens
import Verif.Props.Split
import Verif.Spec.Color
import Verif.Lemmas.Color
import Verif.Props.Color
import Verif.Props.Config
import Verif.Spec.Tables
import Verif.Lemmas.Tables
import Verif.Props.Tables
import Verif.Lemmas.Lines
import Verif.Props.Lines
import Verif.Lemmas.Glyph
import Verif.Props.Text
import Verif.Spec.Oer
import Verif.Lemmas.Oer
import Verif.Props.Oer
import Verif.Props.Tfon
import Verif.Lemmas.Graphics
import Verif.Props.Graphics
import Verif.Lemmas.Numbers
import Verif.Lemmas.Dispatch
import Verif.Lemmas.Items
import Verif.Spec.Values
import Verif.Props.Panic
import Verif.Props.Ranges
import Verif.Props.Case
import Verif.Lemmas.Display
import Verif.Props.Canonical
import Verif.Lemmas.Normalize
import Verif.Spec.Effect
import Verif.Props.Normalize
import Verif.Props.Escape
import Verif.Spec.Pages
import Verif.Lemmas.Pages
import Verif.Lemmas.PageRun
import Verif.Lemmas.PageErr
import Verif.Props.Pages
import Verif.Lemmas.PageColor
import Verif.Props.PageColor
import Verif.Spec.Layout
import Verif.Lemmas.Layout
import Verif.Lemmas.Drawing
import Verif.Lemmas.Rects
import Verif.Lemmas.States
import Verif.Lemmas.Fit
import Verif.Props.Layout
import Verif.Spec.Rects
import Verif.Spec.Pattern
import Verif.Lemmas.Pattern
import Verif.Lemmas.Fill
import Verif.Lemmas.Extract
import Verif.Props.Pattern
import Verif.Lemmas.Safe
import Verif.Props.Render
import Verif.Model.F32
import Verif.Model.Position
import Verif.Spec.Position
import Verif.Lemmas.F32
import Verif.Lemmas.Position
import Verif.Props.Position
import Verif.Spec.Place
import Verif.Lemmas.Place
import Verif.Spec.Section
import Verif.Lemmas.Section
import Verif.Props.Place
import Verif.Props.Exact
import Verif.Spec.Compose
import Verif.Lemmas.Compose
import Verif.Props.Compose
import Verif.Props.Version
import Verif.Spec.Accept
import Verif.Lemmas.Accept
import Verif.Props.Accept
import Verif.Props.Rects
import Verif.Model.MultiStr
import Verif.Props.Bytes
import Verif.Props.FontFile
import Verif.Lemmas.Drops
import Verif.Props.Same
import Verif.Lemmas.Shown
import Verif.Lemmas.Walk
import Verif.Props.Shown
import Verif.Model.Bmp
import Verif.Spec.Bmp
import Verif.Lemmas.Bmp
import Verif.Props.Bmp
import Verif.Lemmas.Local
import Verif.Props.Local
import Verif.Lemmas.Larger
import Verif.Props.Larger
import Verif.Spec.Recolor
import Verif.Lemmas.Recolor
import Verif.Props.Recolor
import Verif.Spec.Move
import Verif.Lemmas.Move
import Verif.Props.Move
import Verif.Lemmas.Denote
import Verif.Props.Denote
import Verif.Lemmas.Append
import Verif.Props.Append
import Verif.Props.Blank
import Verif.Props.Oversize
import Verif.Spec.Look
import Verif.Lemmas.Join
import Verif.Lemmas.Look
import Verif.Lemmas.Depict
import Verif.Lemmas.Rewrite
import Verif.Props.Look
import Verif.Model.Release
import Verif.Spec.Release
import Verif.Lemmas.Release
import Verif.Props.Release
import Verif.Lemmas.Stuck
import Verif.Props.NormalizeExact
import Verif.Props.FontExact
import Verif.Props.GraphicsExact
import Verif.Props.Ends
import Verif.Props.PageSize
import Verif.Spec.Fault
import Verif.Lemmas.Fault
import Verif.Props.Fault
import Verif.Spec.Grammar
import Verif.Lemmas.Grammar
import Verif.Props.Grammar
import Verif.Lemmas.Cells
import Verif.Props.Cells
import Verif.Props.Asked
import Verif.Props.BuildError
import Verif.Props.Fits
import Verif.Props.Limits
import Verif.Spec.First
import Verif.Spec.Counted
import Verif.Spec.Drawn
import Verif.Lemmas.First
import Verif.Lemmas.Counted
import Verif.Lemmas.CountedPieces
import Verif.Props.First
import Verif.Lemmas.Picture
import Verif.Props.Picture
import Verif.Spec.Account
import Verif.Lemmas.Account
import Verif.Props.Account
import Verif.Props.Iff
import Verif.Props.Endless
import Verif.Props.Inside
import Verif.Spec.Stop
import Verif.Lemmas.Stop
import Verif.Props.Stop
import Verif.Spec.After
import Verif.Lemmas.After
import Verif.Props.After
import Verif.Spec.Narrow
import Verif.Lemmas.Narrow
import Verif.Props.Narrow
import Verif.Spec.Wording
import Verif.Lemmas.Wording
import Verif.Props.Wording
import Verif.Spec.Room
import Verif.Props.Room
import Verif.Spec.Alone
import Verif.Lemmas.Quiet
import Verif.Props.Alone
import Verif.Spec.Sequel
import Verif.Props.Sequel
import Verif.Spec.Inset
import Verif.Lemmas.Inset
import Verif.Props.Inset
import Verif.Spec.Defaults
import Verif.Props.Defaults
import Verif.Spec.Style
import Verif.Props.Style
import Verif.Model.Example
import Verif.Spec.Example
import Verif.Props.Example
import Verif.Spec.Contained
import Verif.Props.Contained
import Verif.Props.ByName
import Verif.Spec.Order
import Verif.Props.Order
import Verif.Props.ExampleGraphic
import Verif.Spec.Synonym
import Verif.Lemmas.Synonym
import Verif.Props.Synonym
import Verif.Spec.OffSign
import Verif.Lemmas.OffSign
import Verif.Props.OffSign
import Verif.Spec.Hidden
import Verif.Props.Hidden
import Verif.Spec.Legible
import Verif.Lemmas.Legible
import Verif.Props.Legible
import Verif.Spec.Renumber
import Verif.Lemmas.Renumber
import Verif.Props.Renumber
import Verif.Spec.Added
import Verif.Lemmas.Added
import Verif.Props.Added
import Verif.Spec.Times
import Verif.Props.Times
import Verif.Lemmas.Paint
import Verif.Spec.Trade
import Verif.Lemmas.Trade
import Verif.Props.Trade
import Verif.Spec.Cover
import Verif.Lemmas.Cover
import Verif.Props.Cover
import Verif.Props.Cases
import Verif.Spec.Onward
import Verif.Lemmas.Onward
import Verif.Lemmas.Typed
import Verif.Props.Onward
import Verif.Spec.Changed
import Verif.Lemmas.Changed
import Verif.Props.Changed
import Verif.Spec.Justify
import Verif.Lemmas.Justify
import Verif.Props.Justify
import Verif.Spec.Relined
import Verif.Lemmas.Relined
import Verif.Props.Relined
import Verif.Spec.Repaint
import Verif.Props.Repaint
import Verif.Spec.Glyphs
import Verif.Lemmas.Glyphs
import Verif.Props.Glyphs
import Verif.Spec.Places
import Verif.Lemmas.Places
import Verif.Props.Places
import Verif.Spec.Told
import Verif.Props.Told
import Verif.Spec.Stack
import Verif.Lemmas.Stack
import Verif.Props.Stack
import Verif.Spec.Before
import Verif.Lemmas.Before
import Verif.Props.Before
import Verif.Spec.Resize
import Verif.Lemmas.Resize
import Verif.Props.Resize
import Verif.Lemmas.Grown
import Verif.Props.Grown
import Verif.Props.Onpass
import Verif.Spec.Tighter
import Verif.Lemmas.Tighter
import Verif.Props.Tighter
import Verif.Props.Brush
import Verif.Props.Taken
import Verif.Spec.Smaller
import Verif.Lemmas.Smaller
import Verif.Props.Smaller
import Verif.Spec.Tint
import Verif.Lemmas.Tint
import Verif.Props.Tint
import Verif.Spec.Pad
import Verif.Lemmas.Pad
import Verif.Props.Pad
import Verif.Spec.Push
import Verif.Lemmas.Push
import Verif.Props.Push
import Verif.Spec.Leading
import Verif.Lemmas.Leading
import Verif.Props.Leading
import Verif.Spec.Sister
import Verif.Lemmas.Sister
import Verif.Props.Sister
import Verif.Spec.Schemes
import Verif.Lemmas.Schemes
import Verif.Props.Schemes
