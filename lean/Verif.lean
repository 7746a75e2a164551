import Verif.Float.Rne
import Verif.Float.Round
import Verif.Float.Fl
import Verif.Model.Basic
import Verif.Model.Zoh
import Verif.Model.Linear
import Verif.Model.Sinc
import Verif.Model.Api
import Verif.Spec.Position
import Verif.Spec.Interp
import Verif.Spec.Sinc
import Verif.Proof.Loop
import Verif.Proof.Numeric
import Verif.Proof.Ratio
import Verif.Proof.Skeleton
import Verif.Proof.Interp
import Verif.Proof.Loops
import Verif.Proof.Body
import Verif.Proof.Kernels
import Verif.Proof.Call
import Verif.Proof.SincTaps
import Verif.Spec.Args
import Verif.Proof.Errors
import Verif.Props.Api
import Verif.Model.Callback
import Verif.Proof.Relational
import Verif.Proof.SincRel
import Verif.Model.New
import Verif.Spec.History
import Verif.Spec.Values
import Verif.Proof.Frame
import Verif.Proof.Reset
import Verif.Proof.ProcessRel
import Verif.Props.History
import Verif.Spec.Contract
import Verif.Proof.InterpHistory
import Verif.Spec.Stream
import Verif.Proof.Stream
import Verif.Proof.Time
import Verif.Proof.LinearSample
import Verif.Proof.Fuel
import Verif.Props.Stream
import Verif.Props.Interp
import Verif.Props.LinearFault
import Verif.Props.Convert
import Verif.Props.Sinc
import Verif.Props.Findings
import Verif.Proof.SincNum
import Verif.Proof.SincBuf
import Verif.Proof.SincStep
import Verif.Proof.SincLoop
import Verif.Proof.SincCall
import Verif.Spec.SincHistory
import Verif.Proof.SincTables
import Verif.Proof.SincHistory
import Verif.Proof.SincStream
import Verif.Proof.SincSafe
import Verif.Spec.Twin
import Verif.Proof.Twin
import Verif.Proof.Neg
import Verif.Proof.SincFuel
import Verif.Props.All
import Verif.Model.Heap
import Verif.Proof.Heap
import Verif.Spec.World
import Verif.Proof.Separation
import Verif.Props.Heap
import Verif.Spec.Level
import Verif.Proof.Level
import Verif.Proof.LevelInterp
import Verif.Props.Level
import Verif.Spec.Callback
import Verif.Proof.Alike
import Verif.Proof.Callback
import Verif.Proof.CallbackCount
import Verif.Proof.CallbackStream
import Verif.Proof.CallbackError
import Verif.Proof.CallbackFuel
import Verif.Proof.SincLive
import Verif.Proof.CallbackSinc
import Verif.Proof.CallbackHang
import Verif.Props.Callback
import Verif.Props.Terminate
import Verif.Model.Coeffs
import Verif.Model.CoeffsFastest
import Verif.Model.CoeffsMid
import Verif.Spec.Filter
import Verif.Proof.FilterNum
import Verif.Proof.FilterSum
import Verif.Proof.FilterAt
import Verif.Proof.FilterPhase
import Verif.Proof.FilterGain
import Verif.Proof.TableSums
import Verif.Proof.TableFastest
import Verif.Proof.TableMid
import Verif.Proof.TableFilter
import Verif.Proof.TableAt
import Verif.Proof.FilterFloat
import Verif.Props.Filter
import Verif.Spec.Glide
import Verif.Proof.Glide
import Verif.Props.Glide
import Verif.Spec.Mix
import Verif.Proof.Mix
import Verif.Props.Mix
import Verif.Props.Duration
import Verif.Model.Timewarp
import Verif.Spec.Timewarp
import Verif.Props.Timewarp
import Verif.Spec.CallbackSafe
import Verif.Proof.CallbackSafe
import Verif.Props.CallbackSafe
import Verif.Spec.Endless
import Verif.Proof.Endless
import Verif.Props.Endless
import Verif.Spec.Simple
import Verif.Props.Simple
import Verif.Model.Varispeed
import Verif.Spec.Varispeed
import Verif.Proof.Varispeed
import Verif.Props.Varispeed
import Verif.Props.SincFault
import Verif.Props.CallbackFault
import Verif.Model.Release
import Verif.Spec.Release
import Verif.Proof.Release
import Verif.Proof.ReleaseSinc
import Verif.Props.Release
import Verif.Props.ReleaseRead
import Verif.Spec.Sine
import Verif.Proof.SineNum
import Verif.Proof.SineTable
import Verif.Proof.SineDouble
import Verif.Proof.SineCheck
import Verif.Proof.SineWave
import Verif.Proof.SineFilter
import Verif.Proof.SineMoment
import Verif.Proof.SineFastest
import Verif.Proof.SineMid1
import Verif.Proof.SineMid2
import Verif.Proof.SineGrid
import Verif.Props.Sine
import Verif.Proof.AliasHat
import Verif.Proof.AliasSum
import Verif.Proof.AliasBound
import Verif.Proof.AliasTable
import Verif.Proof.AliasFastest
import Verif.Proof.AliasMid
import Verif.Proof.AliasGrid
import Verif.Proof.AliasTap
import Verif.Proof.AliasFilter
import Verif.Props.Alias
import Verif.Spec.Local
import Verif.Props.Local
import Verif.Spec.Smooth
import Verif.Proof.Chord
import Verif.Props.Smooth
import Verif.Spec.Recording
import Verif.Props.Recording
import Verif.Props.Reading
import Verif.Props.Band
import Verif.Props.Response
import Verif.Spec.Pcm
import Verif.Props.Pcm
import Verif.Props.Cascade
import Verif.Props.Whole
import Verif.Props.Warp
import Verif.Props.Pcm32
import Verif.Spec.Shift
import Verif.Props.Shift
import Verif.Model.Device
import Verif.Spec.Device
import Verif.Props.Device
import Verif.Props.Speed
import Verif.Props.TrueSine
import Verif.Props.Null
import Verif.Props.Lag
import Verif.Props.Mac
import Verif.Spec.Louder
import Verif.Proof.Louder
import Verif.Props.Louder
import Verif.Spec.Alone
import Verif.Props.Alone
import Verif.Model.Dispatch
import Verif.Props.UserPointer
import Verif.Spec.Threads
import Verif.Props.Threads
import Verif.Props.Rising
import Verif.Props.Loop
import Verif.Props.CallbackLoop
import Verif.Props.ThreeApis
import Verif.Props.Totals
import Verif.Props.TotalsInterp
