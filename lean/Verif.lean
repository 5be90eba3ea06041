import Verif.Model.Bytes
import Verif.Model.Os
import Verif.Model.Version
import Verif.Model.Parse
import Verif.Model.OptionMap
import Verif.Model.Path
import Verif.Model.Options
import Verif.Model.Template
import Verif.Model.UnitTests
import Verif.Model.Env
import Verif.Model.Print
import Verif.Model.Socket
import Verif.Model.Pair
import Verif.Model.Core
import Verif.Model.Extras
import Verif.Lemmas.Os
import Verif.Spec.Text
import Verif.Lemmas.Text
import Verif.Lemmas.Utf8
import Verif.Lemmas.Options
import Verif.Props.Text
import Verif.Props.Version
import Verif.Props.Builds
import Verif.Props.Escalate
import Verif.Props.Options
import Verif.Spec.Template
import Verif.Props.Template
import Verif.Props.Variables
import Verif.Spec.Path
import Verif.Lemmas.Path
import Verif.Props.Path
import Verif.Lemmas.Samples
import Verif.Props.Command
import Verif.Spec.Session
import Verif.Props.Exempt
import Verif.Lemmas.Runs
import Verif.Lemmas.Handshake
import Verif.Lemmas.CoreRuns
import Verif.Spec.Trace
import Verif.Lemmas.SockIo
import Verif.Lemmas.Prompt
import Verif.Spec.Approval
import Verif.Spec.Input
import Verif.Lemmas.Approve
import Verif.Lemmas.Scenario
import Verif.Props.Gate
import Verif.Lemmas.Exec
import Verif.Props.Session
import Verif.Spec.Mirror
import Verif.Props.Mirror
import Verif.Spec.Fs
import Verif.Lemmas.Fs
import Verif.Props.SocketFs
import Verif.Spec.Order
import Verif.Props.Order
import Verif.Lemmas.Piecewise
import Verif.Spec.Signal
import Verif.Props.SockIo
import Verif.Spec.Printf
import Verif.Props.Print
import Verif.Lemmas.Prog
import Verif.Spec.Effort
import Verif.Props.Effort
import Verif.Spec.Local
import Verif.Props.Local
import Verif.Spec.Extras
import Verif.Props.Extras
import Verif.Model.Framework
import Verif.Lemmas.Lawful
import Verif.Spec.Framework
import Verif.Lemmas.Says
import Verif.Props.Framework
import Verif.Spec.Frontend
import Verif.Props.Frontend
import Verif.Model.Ffi
import Verif.Spec.Ffi
import Verif.Props.Ffi
import Verif.Model.SamplePrompts
import Verif.Props.Prompts
import Verif.Spec.Rejection
import Verif.Props.Rejection
import Verif.Spec.Protocol
import Verif.Lemmas.Protocol
import Verif.Props.Protocol
import Verif.Model.Table
import Verif.Spec.Table
import Verif.Props.Table
import Verif.Model.Audit
import Verif.Spec.Audit
import Verif.Lemmas.Audit
import Verif.Lemmas.Story
import Verif.Props.Audit
import Verif.Spec.Transcript
import Verif.Lemmas.Transcript
import Verif.Props.Transcript
import Verif.Model.Drain
import Verif.Spec.Drain
import Verif.Props.Drain
import Verif.Spec.World
import Verif.Props.World
import Verif.Props.Screen
import Verif.Props.Follow
import Verif.Props.Loss
import Verif.Props.Shell
import Verif.Props.Sudoers
import Verif.Props.Tty
import Verif.Props.Search
import Verif.Props.LogText
import Verif.Props.LogOptions
import Verif.Props.Abi
import Verif.Spec.Refusal
import Verif.Props.Refusal
import Verif.Props.Boundary
import Verif.Props.Edges
import Verif.Spec.Together
import Verif.Props.Together
import Verif.Spec.Depends
import Verif.Props.Depends
import Verif.Props.DependsLog
import Verif.Spec.Scene
import Verif.Props.EndToEnd
import Verif.Spec.Discreet
import Verif.Props.Discreet
import Verif.Model.Handles
import Verif.Spec.Handles
import Verif.Lemmas.Handles
import Verif.Props.Handles
import Verif.Props.Configured
import Verif.Props.Config
import Verif.Props.Status
import Verif.Model.Install
import Verif.Spec.Install
import Verif.Props.Install
import Verif.Model.Ip
import Verif.Spec.Ip
import Verif.Props.Ip
