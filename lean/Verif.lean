import Verif.PyStr
import Verif.Shlex
import Verif.Errors
import Verif.PosixPath
import Verif.Options
import Verif.PyInt
import Verif.Version
import Verif.PyStrLemmas
import Verif.ArgparseLine
import Verif.Sections
import Verif.Parser
import Verif.ParserLemmas
import Verif.SectionLemmas
import Verif.Props.VersionProps
import Verif.Props.OptionsProps
import Verif.ShlexLemmas
import Verif.Props.ShlexProps
import Verif.Argparse
import Verif.ArgparseLemmas
import Verif.ArgparseCanon
import Verif.Props.ArgparseProps
import Verif.Packages
import Verif.PackagesLemmas
import Verif.Props.PackagesProps
import Verif.Document
import Verif.Props.DocProps
import Verif.Includes
import Verif.Props.ParserProps
import Verif.Props.EscapeProps
import Verif.OptLemmas
import Verif.PackagesHeader
import Verif.Props.RoundTripProps
import Verif.Preprocess
import Verif.Props.PreprocessProps
import Verif.Handler
import Verif.HandlerLemmas
import Verif.Props.HandlerProps
import Verif.Props.WriteProps
import Verif.Commands.Base
import Verif.Commands.Maps
import Verif.ArgparseShape
import Verif.Commands.Logic
import Verif.Commands.Safe
import Verif.Commands.Ok
import Verif.Commands.Classes
import Verif.Commands.MapsOk
import Verif.Commands.Session
import Verif.Props.CommandProps
import Verif.Commands.Lines
import Verif.Commands.Conflicts
import Verif.Commands.ConflictMaps
import Verif.Commands.LocalLogic
import Verif.Commands.Local
import Verif.Props.ConflictProps
import Verif.Props.OrderProps
import Verif.Commands.PostLogic
import Verif.Commands.ListLogic
import Verif.Commands.Lists
import Verif.Commands.StageLogic
import Verif.Commands.Stages
import Verif.Props.ListProps
import Verif.Props.StageProps
import Verif.Commands.RuleSpec
import Verif.Commands.RuleLogic
import Verif.Commands.RuleLogic2
import Verif.Commands.Rules
import Verif.Props.RuleProps
import Verif.Commands.ReadBackLemmas
import Verif.Commands.ReadBackPlain
import Verif.Commands.ReadBackLogic
import Verif.Commands.Sheets
import Verif.Props.ReadBackProps
import Verif.Commands.SelfLogic
import Verif.Commands.Stripped
import Verif.Commands.StripTexts
import Verif.Commands.SelfSheets
import Verif.Commands.SelfIgnore
import Verif.Commands.SelfBack1
import Verif.Commands.SelfBack2
import Verif.Commands.SelfBack3
import Verif.Props.UnreadProps
import Verif.Props.SelfBackProps
import Verif.Commands.OwnRuleSpec
import Verif.Commands.OwnRuleLogic
import Verif.Commands.OwnRules
import Verif.Props.OwnRuleProps
import Verif.Commands.LineSpec
import Verif.Commands.LineTable
import Verif.Commands.LineLogic
import Verif.Commands.FirstLines
import Verif.Props.LineProps
import Verif.Commands.TextSpec
import Verif.Commands.TextTable
import Verif.Commands.TextLogic
import Verif.Commands.FirstTexts
import Verif.Props.TextProps
import Verif.Commands.MethodProxy
import Verif.Props.MethodProps
import Verif.Validator
import Verif.ValidatorLemmas
import Verif.Props.ValidatorProps
import Verif.Load
import Verif.Tools
import Verif.Props.LoadProps
import Verif.Props.ToolProps
import Verif.Commands.NearLogic
import Verif.Commands.Near1
import Verif.Commands.Near
import Verif.Commands.NearHandler
import Verif.Props.NumberProps
import Verif.Commands.NormalArgs
import Verif.Commands.NormalLogic
import Verif.Commands.NormalSims
import Verif.Commands.NormalClasses
import Verif.Commands.NormalSpec
import Verif.Commands.NormalPart
import Verif.Commands.NormalLogvol
import Verif.Commands.NormalNetwork
import Verif.Commands.NormalOthers
import Verif.Props.NormalProps
import Verif.Commands.FramedLogic
import Verif.Commands.Framed
import Verif.Commands.PlainNormalLogic
import Verif.Commands.PlainNormalSims
import Verif.Commands.PlainNormalSpec
import Verif.Commands.PlainNormalLock
import Verif.Commands.PlainNormal1
import Verif.Commands.PlainNormal2
import Verif.Commands.PlainNormal3
import Verif.Props.StableProps
import Verif.Props.StableLists
import Verif.Props.KeepProps
import Verif.Commands.FixedLogic
import Verif.Commands.FixedTexts
import Verif.Props.FixedProps
import Verif.Commands.WordLogic
import Verif.Props.WordProps
import Verif.Props.WordProps2
import Verif.Props.WordProps3
import Verif.Props.PlainProps
import Verif.Commands.OpTable
import Verif.Commands.OpBuilt
import Verif.VerDiff
import Verif.Props.VerDiffProps
import Verif.Props.RawProps
import Verif.Props.RawLineProps
import Verif.Props.SmallProps
import Verif.Props.SshProps
import Verif.Props.SnapProps
import Verif.Props.NvdimmProps
