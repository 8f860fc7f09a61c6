import Verif.Model.Api
import Verif.Refine.Heap
import Verif.Lemmas.Str
import Verif.Lemmas.Adapter
import Verif.Spec.Repair
import Verif.Props.Adapter
import Verif.Props.Doc
import Verif.Props.Rules
import Verif.Props.Tokens
import Verif.Props.Layout
import Verif.Props.Nesting
import Verif.Props.Tables
import Verif.Lemmas.Context
import Verif.Props.Context
import Verif.Props.Repeat
import Verif.Props.Shown
import Verif.Props.Size
import Verif.Props.Symbols
import Verif.Props.Commands
import Verif.Props.Threads
import Verif.Props.Text
import Verif.Props.Standard
import Verif.Props.Missing
import Verif.Props.Latex
import Verif.Props.Means
import Verif.Props.Xml
import Verif.Props.Several
import Verif.Props.Steps
import Verif.Props.Chars
import Verif.Props.Dissolve
import Verif.Props.Stack
import Verif.Props.Faults
import Verif.Props.Calls
import Verif.Props.Expat
import Verif.Props.Range
import Verif.Props.Matcher
import Verif.Props.Junk
import Verif.Props.Shared
import Verif.Props.Surrogates
import Verif.Props.Made
import Verif.Props.Skipped
import Verif.Props.Interrupted
import Verif.Tests.RepoSuite
import Verif.Props.Checked
import Verif.Source.Whole
import Verif.Props.Source
import Verif.Props.Interleave
import Verif.Props.Byhand
import Verif.Props.Stopped
import Verif.Props.Among
import Verif.Props.Reader
import Verif.Props.Race
import Verif.Props.Services
import Verif.Props.Room
import Verif.Props.Live
import Verif.Props.Objects
import Verif.Refine.Again
import Verif.Props.Again
import Verif.Props.Together
import Verif.Source.Veil
import Verif.Source.Marking
import Verif.Props.Fresh
import Verif.Source.Converters
import Verif.Props.Holding
import Verif.Props.Anew
import Verif.Source.Party
import Verif.Source.Pull
import Verif.Props.Handing
import Verif.Props.Cases
import Verif.Props.CasesMore
import Verif.Spec.Renaming
import Verif.Props.Renaming
import Verif.Spec.Expr
import Verif.Props.Expr
import Verif.Spec.Place
import Verif.Props.Place
