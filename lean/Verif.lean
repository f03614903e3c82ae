import Verif.Basic
import Verif.Codec.Ty
import Verif.Codec.Impl
import Verif.Codec.Spec
import Verif.Codec.IntLemmas
import Verif.Codec.Unmarshal
import Verif.Codec.Marshal
import Verif.Codec.MarshalAny
import Verif.Codec.Check
import Verif.Base.Layout
import Verif.Base.LayoutLemmas
import Verif.Base.Types
import Verif.Codec.Props
import Verif.Codec.Faults
import Verif.Codec.FaultProps
import Verif.Errors.Impl
import Verif.Errors.Props
import Verif.Base.Attr
import Verif.Base.AttrProps
import Verif.Base.Handle
import Verif.Base.HandleProps
import Verif.Base.Tpml
import Verif.Base.TpmlProps
import Verif.Tpm2.Impl
import Verif.Tpm2.Props
import Verif.Client.Impl
import Verif.Client.Spec
import Verif.Client.Lemmas
import Verif.Client.Props
import Verif.Client.Live
import Verif.Client.LiveLemmas
import Verif.Client.LiveProps
import Verif.Tcp.Impl
import Verif.Tcp.Spec
import Verif.Tcp.Lemmas
import Verif.Tcp.Props
import Verif.Tcp.Ledger
import Verif.Tcp.Simulator
import Verif.Tcp.SimulatorProps
import Verif.Tcp.PeerProps
import Verif.Tcp.ResultProps
import Verif.Server.Drbg
import Verif.Server.Impl
import Verif.Server.Spec
import Verif.Server.Lemmas
import Verif.Server.Props
import Verif.Server.Buffers
import Verif.Server.BufferProps
import Verif.Server.DrbgProps
import Verif.EndToEnd.Impl
import Verif.EndToEnd.Props
import Verif.Derive.Impl
import Verif.Derive.Sem
import Verif.Derive.Spec
import Verif.Derive.Lemmas
import Verif.Derive.Compile
import Verif.Derive.Props
import Verif.Derive.Messages
import Verif.Derive.MessageProps
import Verif.Derive.Program
import Verif.Derive.ProgramLemmas
import Verif.Derive.Decls
import Verif.Derive.BaseProps
import Verif.Derive.Targets
import Verif.Derive.TargetProps
import Verif.Codec.Typed
import Verif.Codec.Sizes
import Verif.Tcg.Spec
import Verif.Tcg.Part2
import Verif.Tcg.Conform
import Verif.Tcg.Layouts
import Verif.Tcg.Constants
import Verif.Tcg.Codes
import Verif.Tcg.Commands
import Verif.Tcg.Responses
import Verif.Tcg.Sizes
import Verif.Tcg.Server
import Verif.Client.Area
import Verif.Client.AreaLemmas
import Verif.Client.AreaProps
import Verif.Client.Own
import Verif.Client.OwnLemmas
import Verif.Client.OwnProps
import Verif.Base.Made
import Verif.Base.MadeLemmas
import Verif.Base.MadeProps
import Verif.Tcp.Reference
import Verif.Tcp.ReferenceLemmas
import Verif.Tcp.ReferenceServer
import Verif.EndToEnd.Program
import Verif.EndToEnd.ProgramLemmas
import Verif.EndToEnd.ProgramCases
import Verif.EndToEnd.ProgramProps
import Verif.EndToEnd.Standard
import Verif.EndToEnd.StandardProps
import Verif.EndToEnd.Ending
import Verif.EndToEnd.EndingLemmas
import Verif.EndToEnd.EndingProps
import Verif.Codec.Parts
import Verif.Codec.PartsLemmas
import Verif.Codec.PartsProps
import Verif.Client.Fit
import Verif.Client.FitProps
import Verif.Tcp.Calls
import Verif.Tcp.CallsLemmas
import Verif.Tcp.CallsProps
import Verif.Tpm2.Fixed
import Verif.Tpm2.FixedProps
import Verif.Tpm2.Limits
import Verif.Tpm2.LimitsProps
import Verif.Server.History
import Verif.Server.HistoryProps
import Verif.Server.Handlers
import Verif.Server.HandlerProps
import Verif.Server.AnyBuffers
import Verif.Server.AnyBuffersProps
import Verif.Client.Outcome
import Verif.Client.OutcomeProps
import Verif.EndToEnd.Text
import Verif.EndToEnd.TextProps
import Verif.Tests.Marshalable
import Verif.Tests.Base
import Verif.Tests.Client
import Verif.Tests.Server
import Verif.Tests.Errors
import Verif.Tests.Integration
import Verif.Tpm2.Own
import Verif.Tpm2.OwnProps
import Verif.EndToEnd.Password
import Verif.EndToEnd.PasswordProps
import Verif.EndToEnd.Random
import Verif.EndToEnd.RandomProps
import Verif.EndToEnd.Remote
import Verif.EndToEnd.RemoteProps
import Verif.Server.BufferUse
import Verif.Width.Codec
import Verif.Width.Client
import Verif.Width.Server
import Verif.Width.Tcp
import Verif.Width.Props
import Verif.Codec.Signed
import Verif.Codec.SignedProps
import Verif.Client.Unambiguous
import Verif.Tcg.Unambiguous
import Verif.Client.Responses
import Verif.EndToEnd.Handlers
import Verif.EndToEnd.Dialog
import Verif.EndToEnd.DialogProps
import Verif.Tcp.Interrupts
import Verif.Tcp.InterruptsLemmas
import Verif.EndToEnd.Interrupts
import Verif.EndToEnd.InterruptsProps
import Verif.Derive.Lite
import Verif.Codec.Own
import Verif.Codec.OwnLemmas
import Verif.Codec.OwnReads
import Verif.Codec.OwnStd
import Verif.Codec.OwnProps
import Verif.Client.Lawful
import Verif.Client.LawfulProps
import Verif.Width.Own
import Verif.Width.OwnProps
import Verif.Client.Endings
import Verif.Client.EndingsProps
import Verif.Width.OwnCodec
import Verif.Width.OwnCodecProps
import Verif.EndToEnd.OwnProgram
import Verif.EndToEnd.OwnProgramProps
import Verif.Width.Handlers
import Verif.Width.HandlersProps
import Verif.Derive.OwnSem
import Verif.Derive.OwnLemmas
import Verif.Derive.OwnCompile
import Verif.Derive.OwnProps
import Verif.Width.DeriveOn
import Verif.Width.DeriveLemmas
import Verif.Width.DeriveProps
import Verif.Client.Declared
import Verif.Client.DeclaredProps
import Verif.Width.Declared
import Verif.Width.DeclaredProps
