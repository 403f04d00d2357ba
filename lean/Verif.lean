import Verif.Store.Props
import Verif.Store.Content
import Verif.Whole.Lost
import Verif.Iter.Props
import Verif.Header.Props
import Verif.Hidden.Props
import Verif.Grid.Props
import Verif.Grid.TableProps
import Verif.Grid.RowProps
import Verif.Grid.Again
import Verif.Grid.Other
import Verif.Refs.Props
import Verif.Xml.TreeProps
import Verif.Codec.TimeProps
import Verif.Codec.CellProps
import Verif.Codec.NoteProps
import Verif.Book.AttrProps
import Verif.Book.NameProps
import Verif.Book.SheetProps
import Verif.Save.Props
import Verif.Package.Props
import Verif.Config.SettingsProps
import Verif.Config.ViewProps
import Verif.Cond.Props
import Verif.Valid.Props
import Verif.Style.Once
import Verif.Width.Examples
import Verif.Width.Rows
import Verif.Width.RowProps
import Verif.Width.RowExamples
import Verif.Enum.Props
import Verif.Meta.Props
import Verif.Meta.Other
import Verif.Meta.Written
import Verif.TableXml.Model
import Verif.TableXml.Attrs
import Verif.TableXml.Run
import Verif.TableXml.Fits
import Verif.TableXml.Table
import Verif.TableXml.Props
import Verif.TableXml.Body
import Verif.TableXml.BodyProps
import Verif.Conv.Float
import Verif.Conv.Model
import Verif.Conv.Props
import Verif.Master.Model
import Verif.Master.Lemmas
import Verif.Master.Spec
import Verif.Master.Props
import Verif.Script.Model
import Verif.Script.Props
import Verif.Ns.Model
import Verif.Ns.Props
import Verif.Xml.DocNames
import Verif.Ns.Prefix
import Verif.Xml.DocTags
import Verif.Whole.Model
import Verif.Whole.Lemmas
import Verif.Whole.StyleTags
import Verif.Whole.Files
import Verif.Whole.Props
import Verif.Whole.Stats
import Verif.Formula.Model
import Verif.Formula.Props
import Verif.Fmt.Build
import Verif.Fmt.Locale
import Verif.Fmt.Props
import Verif.Fmt.Ready
import Verif.Fmt.Push
import Verif.Fmt.Defaults
import Verif.Attr.Model
import Verif.Attr.Spec
import Verif.Attr.Lemmas
import Verif.Attr.Props
import Verif.Attr.Odf
import Verif.Attr.OdfProps
import Verif.Attr.Forms
import Verif.Attr.FormsProps
import Verif.Text.Props
import Verif.Sheet.Model
import Verif.Sheet.Spec
import Verif.Sheet.Lemmas
import Verif.Sheet.Props
import Verif.Whole.History
import Verif.Header.RowStates
import Verif.Config.ViewBack
import Verif.Whole.Cycle
import Verif.Whole.CycleSizes
import Verif.Whole.CycleProps
import Verif.Whole.CycleExample
import Verif.Style.Closed
import Verif.Grid.Settle
import Verif.TableXml.Steady
import Verif.TableXml.Still
import Verif.Master.Again
import Verif.Whole.Again
import Verif.Whole.AgainExample
import Verif.TableXml.Edit
import Verif.Grid.Ready
import Verif.Whole.Edit
import Verif.Whole.EditExample
import Verif.Book.Less
import Verif.Style.Form
import Verif.Whole.Content
import Verif.Package.Xml
import Verif.Archive.Model
import Verif.Archive.Props
import Verif.Config.Default
import Verif.Whole.New
import Verif.Whole.NewProps
import Verif.Whole.NewExample
import Verif.Codec.IsoTime
import Verif.Codec.OtherCells
import Verif.Codec.Element
import Verif.Codec.OtherNotes
import Verif.Codec.OtherContent
import Verif.Codec.OtherProps
import Verif.Grid.Accept
import Verif.TableXml.OtherAttrs
import Verif.TableXml.OtherTable
import Verif.TableXml.OtherProps
import Verif.Valid.Other
import Verif.Valid.Setters
import Verif.TableXml.OtherBody
import Verif.Xml.CharRef
import Verif.Xml.Spelling
import Verif.Xml.RefProps
import Verif.Whole.OtherFile
import Verif.Style.Other
import Verif.Style.OtherFormat
import Verif.Style.OtherRun
import Verif.Style.OtherFound
import Verif.Whole.OtherStyles
import Verif.Codec.Reach
import Verif.Master.Other
import Verif.Script.Other
import Verif.Config.Other
import Verif.Meta.OtherTree
import Verif.Whole.OtherAll
import Verif.Whole.OtherWhole
import Verif.Whole.Calm
import Verif.Whole.CalmTable
import Verif.Whole.CalmParts
import Verif.Whole.CalmSections
import Verif.Whole.CalmFile
import Verif.Whole.CalmProps
import Verif.Whole.CalmTree
import Verif.Whole.NewMore
