import Verif.Py.Basic
import Verif.Py.Re
import Verif.Lemmas.Re
import Verif.Gen.Regexs
import Verif.Props.Record
import Verif.Props.Split
import Verif.Props.Transform
import Verif.Props.Numeration
import Verif.Props.Post
import Verif.Props.PdfFile
import Verif.Props.KbCache
import Verif.Props.Api
import Verif.Props.PdfKeys
import Verif.Props.Boundary
import Verif.Props.Lines
import Verif.Props.Rebuild
import Verif.Props.Find
import Verif.Props.Tag
import Verif.Props.Titles
import Verif.Props.Kbs
import Verif.Props.Parse
import Verif.Props.Engine
import Verif.Props.Books
import Verif.Props.Hdl
import Verif.Props.Journal
import Verif.Props.Places
import Verif.Props.Ident
import Verif.Spec.Collab
import Verif.Lemmas.Collab
import Verif.Lemmas.Collab2
import Verif.Lemmas.Collab3
import Verif.Lemmas.Collab4
import Verif.Lemmas.Table
import Verif.Props.Collab
import Verif.Spec.Author
import Verif.Lemmas.Author
import Verif.Lemmas.Author2
import Verif.Lemmas.Author3
import Verif.Lemmas.Author4
import Verif.Lemmas.Author5
import Verif.Props.Author
import Verif.Model.Strings
import Verif.Spec.Strings
import Verif.Lemmas.Strings
import Verif.Lemmas.Strings2
import Verif.Props.Strings
import Verif.Spec.Plain
import Verif.Lemmas.Occurs
import Verif.Lemmas.Built
import Verif.Lemmas.Built2
import Verif.Lemmas.Built3
import Verif.Lemmas.NoLt
import Verif.Lemmas.Meek
import Verif.Lemmas.Meek2
import Verif.Lemmas.Meek3
import Verif.Lemmas.Meek4
import Verif.Lemmas.Avoid
import Verif.Lemmas.Whole
import Verif.Props.Crash
import Verif.Spec.Numbered
import Verif.Lemmas.Numbered
import Verif.Lemmas.Numbered2
import Verif.Lemmas.Numbered3
import Verif.Lemmas.Numbered4
import Verif.Props.Numbered
import Verif.Spec.Section
import Verif.Lemmas.Section
import Verif.Lemmas.Section2
import Verif.Lemmas.Section3
import Verif.Props.Section
import Verif.Model.Document
import Verif.Spec.Document
import Verif.Lemmas.Document
import Verif.Props.Document
import Verif.Model.Kept
import Verif.Spec.Alone
import Verif.Lemmas.Alone
import Verif.Props.Alone
import Verif.Spec.Headings
import Verif.Spec.Implied
import Verif.Lemmas.Headings
import Verif.Lemmas.Implied
import Verif.Props.Headings
import Verif.Props.Implied
import Verif.Spec.Calm
import Verif.Spec.Known
import Verif.Lemmas.Calm
import Verif.Lemmas.Known
import Verif.Lemmas.Known2
import Verif.Lemmas.Known3
import Verif.Lemmas.Known4
import Verif.Lemmas.Known5
import Verif.Props.Known
import Verif.Spec.Items
import Verif.Lemmas.Items
import Verif.Lemmas.Items2
import Verif.Lemmas.Items3
import Verif.Lemmas.Items4
import Verif.Props.Items
import Verif.Spec.Unknown
import Verif.Spec.Reports
import Verif.Lemmas.Unknown
import Verif.Lemmas.Unknown2
import Verif.Lemmas.Unknown3
import Verif.Props.Unknown
import Verif.Lemmas.Reports
import Verif.Lemmas.Lone
import Verif.Lemmas.Reports2
import Verif.Props.Reports
import Verif.Props.Doi
import Verif.Spec.Arxiv
import Verif.Lemmas.Arxiv
import Verif.Lemmas.Arxiv2
import Verif.Lemmas.Arxiv3
import Verif.Lemmas.Arxiv4
import Verif.Props.Arxiv
import Verif.Model.KbFile
import Verif.Spec.KbFile
import Verif.Lemmas.KbFile
import Verif.Props.KbFile
import Verif.Lemmas.Forward
import Verif.Lemmas.Automaton
import Verif.Spec.UrlLine
import Verif.Lemmas.UrlLine
import Verif.Lemmas.UrlLine2
import Verif.Props.UrlLine
import Verif.Spec.DoiList
import Verif.Lemmas.Tokens
import Verif.Lemmas.DoiList
import Verif.Lemmas.DoiList2
import Verif.Props.DoiList
import Verif.Model.PdfText
import Verif.Spec.PdfText
import Verif.Spec.Figure
import Verif.Lemmas.PdfText
import Verif.Lemmas.PdfText2
import Verif.Props.PdfText
import Verif.Lemmas.Figure
import Verif.Props.Figure
import Verif.Lemmas.ArticleDoi2
import Verif.Props.ArticleDoi
import Verif.Props.ArticleArxiv
import Verif.Props.Cited
import Verif.Props.Linked
import Verif.Props.Format
import Verif.Props.OwnDoi
import Verif.Props.CitedOptions
import Verif.Props.OwnUrl
