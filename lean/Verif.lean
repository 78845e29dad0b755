import Verif.Props.Codec
import Verif.Props.Cache
import Verif.Props.Version
import Verif.Props.Tokenizer
import Verif.Props.Entry64
import Verif.Props.Transparency
import Verif.Props.Client
import Verif.Props.OS
import Verif.Props.Context
import Verif.Props.Model
import Verif.Props.Device
import Verif.Props.Panics
import Verif.Props.Names
import Verif.Props.Compiler
import Verif.Props.Pool
import Verif.Props.Cli
import Verif.Props.Alias
import Verif.Props.Lock
import Verif.Props.Shipped
import Verif.Props.ShippedPanic
import Verif.Props.ShippedEngine
import Verif.Props.Builtin
import Verif.Props.BuiltinCollision
import Verif.Props.Case
import Verif.Props.Sole
import Verif.Props.Batch
import Verif.Props.Session
import Verif.Props.RuleFiles
import Verif.Props.VersionGetters
import Verif.Props.Single
import Verif.Props.Emit
import Verif.Props.Race
import Verif.Props.Tool
import Verif.Props.Fetch
import Verif.Props.CliFlags
import Verif.Props.Pattern
import Verif.Props.ShippedPattern
import Verif.Props.ShippedVersions
import Verif.Props.ShippedNames
import Verif.Props.Consistent
import Verif.Props.CaseAnswers
import Verif.Props.ShippedNumbers
import Verif.Props.DeadModelsCase
import Verif.Props.ShippedText
import Verif.Props.SingleShipped
import Verif.Props.ToolText
import Verif.Props.VersionText
import Verif.Props.VersionDistinct
import Verif.Props.Layout
import Verif.Props.VersionAgain
import Verif.Props.TokenizerAgain
