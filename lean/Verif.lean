import Verif.Base.BytesLemmas
import Verif.Base.GoMap
import Verif.Base.Base64
import Verif.Base.Err
import Verif.Base.Path
import Verif.Json.RoundTrip
import Verif.Json.Num
import Verif.Json.Any
import Verif.Json.Decode
import Verif.Json.Alike
import Verif.Json.DecEq
import Verif.Net.IPLemmas
import Verif.Types.Results
import Verif.Types.ConvertLemmas
import Verif.Types.ResultJson
import Verif.Types.ResultJsonLemmas
import Verif.Types.ResultRoundTrip
import Verif.Types.PluginConf
import Verif.Utils.Validate
import Verif.Invoke.Fixup
import Verif.Invoke.Args
import Verif.Invoke.Exec
import Verif.Spec.Results
import Verif.Spec.Version
import Verif.Spec.ResultJson
import Verif.Spec.Doc
import Verif.Spec.Names
import Verif.Spec.Env
import Verif.Props.Convert
import Verif.Props.Version
import Verif.Props.ResultJson
import Verif.Props.PluginOutput
import Verif.Props.PrevResult
import Verif.Props.Names
import Verif.Props.Env
import Verif.Props.Exec
import Verif.Props.Deliver
import Verif.Base.Sort
import Verif.Json.Clean
import Verif.Json.Indent
import Verif.Types.ResultNums
import Verif.Libcni.Conf
import Verif.Libcni.Build
import Verif.Spec.Stdin
import Verif.Props.Inject
import Verif.Types.PluginConfLemmas
import Verif.Spec.Conf
import Verif.Props.Stdin
import Verif.Props.Conf
import Verif.Props.Lookup
import Verif.Libcni.Prog
import Verif.Libcni.ProgLemmas
import Verif.Libcni.Cache
import Verif.Libcni.CacheLemmas
import Verif.Libcni.CachePath
import Verif.Libcni.Interp
import Verif.Libcni.Api
import Verif.Spec.Api
import Verif.Props.Add
import Verif.Libcni.CacheRead
import Verif.Props.Del
import Verif.Props.CacheUse
import Verif.Spec.Cache
import Verif.Props.History
import Verif.Spec.Attach
import Verif.Props.Attach
import Verif.Spec.Gc
import Verif.Props.Gc
import Verif.Spec.Panic
import Verif.Props.Panic
import Verif.Spec.Query
import Verif.Props.Query
import Verif.Skel.Skel
import Verif.Spec.Skel
import Verif.Spec.EndToEnd
import Verif.Props.Skel
import Verif.Props.EndToEnd
import Verif.Spec.Delegate
import Verif.Props.Delegate
import Verif.Types.Print
import Verif.Skel.Main
import Verif.Spec.Errors
import Verif.Props.Errors
import Verif.Props.PluginPrint
import Verif.Json.Prefix
import Verif.Libcni.CrashLemmas
import Verif.Libcni.Local
import Verif.Spec.Crash
import Verif.Props.Crash
import Verif.Props.CrashRead
import Verif.Spec.Inter
import Verif.Props.Inter
import Verif.Spec.PluginView
import Verif.Props.PluginView
import Verif.Types.GetResult
import Verif.Props.GetResult
import Verif.Types.Heap
import Verif.Spec.Heap
import Verif.Props.Heap
import Verif.Spec.VersionInfo
import Verif.Props.VersionInfo
import Verif.Types.PluginConfJson
import Verif.Spec.ConfJson
import Verif.Props.ConfJson
import Verif.Plugins.Debug
import Verif.Spec.Debug
import Verif.Props.Debug
import Verif.Props.GcComplete
import Verif.Cnitool.Main
import Verif.Spec.Tool
import Verif.Props.Tool
import Verif.Types.HeapCopy
import Verif.Spec.Copy
import Verif.Props.Copy
import Verif.Conformance.Types
import Verif.Conformance.Results
import Verif.Conformance.Conf
import Verif.Conformance.Skel
import Verif.Conformance.Invoke
import Verif.Plugins.Noop
import Verif.Conformance.Api
import Verif.Conformance.ApiList
import Verif.Conformance.ApiList2
import Verif.Conformance.Noop
import Verif.Types.Created
import Verif.Spec.Progress
import Verif.Props.Progress
import Verif.Spec.Faithful
import Verif.Props.Faithful
import Verif.Spec.Amid
import Verif.Props.Amid
import Verif.Spec.Chain
import Verif.Props.Chain
import Verif.Spec.Same
import Verif.Props.Upconvert
import Verif.Spec.Again
import Verif.Props.Again
import Verif.Spec.Search
import Verif.Spec.OnlyFound
import Verif.Spec.Validated
import Verif.Spec.Through
import Verif.Props.OnlyFound
import Verif.Props.Validated
import Verif.Props.ValidatedNet
import Verif.Props.Through
import Verif.Spec.Provenance
import Verif.Props.Provenance
import Verif.Spec.Settled
import Verif.Props.Settled
import Verif.Spec.Collected
import Verif.Props.Collected
import Verif.Libcni.Posix
import Verif.Spec.Posix
import Verif.Props.Posix
import Verif.Spec.Restart
import Verif.Props.Restart
import Verif.Spec.Request
import Verif.Props.Request
import Verif.Libcni.Reads
import Verif.Spec.Reads
import Verif.Props.Reads
import Verif.Spec.Later
import Verif.Props.Later
import Verif.Spec.Legacy
import Verif.Props.Legacy
import Verif.Props.CacheDir
import Verif.Spec.ErrorText
import Verif.Props.ErrorText
import Verif.Plugins.NoopRecord
import Verif.Plugins.NoopLemmas
import Verif.Spec.Noop
import Verif.Props.Noop
import Verif.Props.NoopRun
import Verif.Spec.AddrText
import Verif.Props.AddrText
import Verif.Spec.Grammar
import Verif.Json.GrammarNum
import Verif.Json.GrammarStr
import Verif.Json.GrammarDoc
import Verif.Props.Grammar
import Verif.Spec.AddrRead
import Verif.Props.AddrRead
import Verif.Spec.ArgValue
import Verif.Props.ArgValue
import Verif.Spec.Fields
import Verif.Spec.ResultDoc
import Verif.Spec.ConfDoc
import Verif.Props.ResultDoc
import Verif.Spec.AnyCase
import Verif.Base.CaseLemmas
import Verif.Spec.Digits
import Verif.Base.DigitLemmas
import Verif.Spec.Spot
import Verif.Base.PathLemmas
import Verif.Props.Paths
import Verif.Spec.ByteOrder
import Verif.Props.ByteOrder
import Verif.Spec.Repair
import Verif.Props.Repair
import Verif.Spec.Base64
import Verif.Base.Base64Lemmas
import Verif.Spec.EntryDoc
import Verif.Props.EntryDoc
import Verif.Spec.Float
import Verif.Spec.Decoded
import Verif.Json.FloatLemmas
import Verif.Json.DecodedLemmas
import Verif.Props.Number
import Verif.Libcni.GcNil
import Verif.Spec.GcNil
import Verif.Props.GcNil
