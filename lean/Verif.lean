import Verif.Basic
import Verif.Model.Api
import Verif.Model.Backend
import Verif.Model.ChaCha
import Verif.Model.ChaChaAvx2
import Verif.Model.ChaChaAvx512
import Verif.Model.ChaChaNeon
import Verif.Model.ChaChaSse2
import Verif.Model.Config
import Verif.Model.CoreApi
import Verif.Model.Endian
import Verif.Model.Family
import Verif.Model.Features
import Verif.Model.Hc256
import Verif.Model.Hygiene
import Verif.Model.Isa
import Verif.Model.Items
import Verif.Model.Memory
import Verif.Model.Packed
import Verif.Model.Rabbit
import Verif.Model.Raw
import Verif.Model.Rc4
import Verif.Model.Requests
import Verif.Model.Rng
import Verif.Model.RngTrace
import Verif.Model.Salsa
import Verif.Model.Simd
import Verif.Model.Trace
import Verif.Model.Work
import Verif.Model.Wrapper
import Verif.Proof.Attr
import Verif.Proof.BackendSim
import Verif.Proof.ChaChaAvx512
import Verif.Proof.ChaChaCore
import Verif.Proof.ChaChaIndep
import Verif.Proof.ChaChaSetup
import Verif.Proof.ChaChaSimd
import Verif.Proof.ChaChaStream
import Verif.Proof.Ciphers
import Verif.Proof.Client
import Verif.Proof.CoreApi
import Verif.Proof.CoreHom
import Verif.Proof.CoreRef
import Verif.Proof.Counter
import Verif.Proof.Decode
import Verif.Proof.Edge
import Verif.Proof.Endian
import Verif.Proof.Erase
import Verif.Proof.Extent
import Verif.Proof.Family
import Verif.Proof.Follow
import Verif.Proof.Frame
import Verif.Proof.Generic
import Verif.Proof.Hc256
import Verif.Proof.LeNat
import Verif.Proof.Memory
import Verif.Proof.OblTactic
import Verif.Proof.Oblivious
import Verif.Proof.Packed
import Verif.Proof.Permutation
import Verif.Proof.Rabbit
import Verif.Proof.RabbitPeriod
import Verif.Proof.Raw
import Verif.Proof.Rc4
import Verif.Proof.Recovery
import Verif.Proof.RecoveryHc256
import Verif.Proof.RecoveryTables
import Verif.Proof.Refill
import Verif.Proof.Requests
import Verif.Proof.Rng
import Verif.Proof.RngTrace
import Verif.Proof.SalsaCore
import Verif.Proof.SalsaStream
import Verif.Proof.Simd
import Verif.Proof.SimdFlat
import Verif.Proof.SrcBytes
import Verif.Proof.SrcChaCha
import Verif.Proof.SrcChaChaAvx2
import Verif.Proof.SrcChaChaAvx512
import Verif.Proof.SrcChaChaDispatch
import Verif.Proof.SrcChaChaNeon
import Verif.Proof.SrcChaChaRng
import Verif.Proof.SrcChaChaSse2
import Verif.Proof.SrcClosure
import Verif.Proof.SrcHc256
import Verif.Proof.SrcMem
import Verif.Proof.SrcRabbit
import Verif.Proof.SrcRc4
import Verif.Proof.SrcRows
import Verif.Proof.SrcSalsa
import Verif.Proof.Stream
import Verif.Proof.Trace
import Verif.Proof.TraceAvx2
import Verif.Proof.TraceAvx512
import Verif.Proof.TraceChaCha
import Verif.Proof.TraceCiphers
import Verif.Proof.TraceClosure
import Verif.Proof.TraceCount
import Verif.Proof.TraceDispatch
import Verif.Proof.TraceNeon
import Verif.Proof.TraceOthers
import Verif.Proof.TracePlain
import Verif.Proof.TraceRabbit
import Verif.Proof.TraceRng
import Verif.Proof.TraceSalsa
import Verif.Proof.TraceSse2
import Verif.Proof.TraceTables
import Verif.Proof.TraceWrapper
import Verif.Proof.Word
import Verif.Proof.Work
import Verif.Proof.Wrapper
import Verif.Props.Api
import Verif.Props.Backward
import Verif.Props.ChaCha
import Verif.Props.Config
import Verif.Props.CoreApi
import Verif.Props.Counter
import Verif.Props.Endian
import Verif.Props.Family
import Verif.Props.Features
import Verif.Props.Hygiene
import Verif.Props.Items
import Verif.Props.Memory
import Verif.Props.Merge
import Verif.Props.Others
import Verif.Props.Packed
import Verif.Props.RabbitIv
import Verif.Props.Raw
import Verif.Props.Relations
import Verif.Props.Requests
import Verif.Props.Rng
import Verif.Props.RngTrace
import Verif.Props.Salsa
import Verif.Props.Sample
import Verif.Props.SeekEnd
import Verif.Props.Separation
import Verif.Props.Setup
import Verif.Props.SimdFlat
import Verif.Props.SrcAvx2
import Verif.Props.SrcAvx512
import Verif.Props.SrcBuild
import Verif.Props.SrcChaCha
import Verif.Props.SrcChaChaRng
import Verif.Props.SrcCiphers
import Verif.Props.SrcClient
import Verif.Props.SrcDecode
import Verif.Props.SrcDispatch
import Verif.Props.SrcExtent
import Verif.Props.SrcFollow
import Verif.Props.SrcHc256
import Verif.Props.SrcNeon
import Verif.Props.SrcRabbit
import Verif.Props.SrcRc4
import Verif.Props.SrcRest
import Verif.Props.SrcRngMachine
import Verif.Props.SrcSalsa
import Verif.Props.SrcSse2
import Verif.Props.SrcTrace
import Verif.Props.SrcTraceCiphers
import Verif.Props.SrcTraceDispatch
import Verif.Props.SrcTracePlain
import Verif.Props.SrcTraceRng
import Verif.Props.SrcTraceTables
import Verif.Props.Streams
import Verif.Props.Structure
import Verif.Props.Symmetry
import Verif.Props.Work
import Verif.Rust.BlockRng
import Verif.Rust.Cfg
import Verif.Rust.ChaChaApi
import Verif.Rust.ChaChaBuild
import Verif.Rust.ChaChaRngApi
import Verif.Rust.ChaChaRngTrace
import Verif.Rust.Ciphers
import Verif.Rust.CiphersTrace
import Verif.Rust.ClientRequests
import Verif.Rust.ClientTrace
import Verif.Rust.Closure
import Verif.Rust.Core
import Verif.Rust.Fmt
import Verif.Rust.Hc256Api
import Verif.Rust.Intrinsics
import Verif.Rust.Lang
import Verif.Rust.Lemmas
import Verif.Rust.Lit
import Verif.Rust.Mem
import Verif.Rust.PlainTrace
import Verif.Rust.RabbitApi
import Verif.Rust.Rc4Api
import Verif.Rust.SalsaApi
import Verif.Rust.Src.ChaCha
import Verif.Rust.Src.ChaChaAvx2
import Verif.Rust.Src.ChaChaAvx512
import Verif.Rust.Src.ChaChaDispatch
import Verif.Rust.Src.ChaChaNeon
import Verif.Rust.Src.ChaChaRng
import Verif.Rust.Src.ChaChaSse2
import Verif.Rust.Src.Hc256
import Verif.Rust.Src.Rabbit
import Verif.Rust.Src.Rc4
import Verif.Rust.Src.Salsa
import Verif.Rust.Syntax
import Verif.Rust.Trace
import Verif.Rust.WrapperTrace
import Verif.Spec.Backward
import Verif.Spec.ChaCha
import Verif.Spec.Ciphers
import Verif.Spec.CoreApi
import Verif.Spec.Cursor
import Verif.Spec.Family
import Verif.Spec.Hc256
import Verif.Spec.Isa
import Verif.Spec.Memory
import Verif.Spec.Rabbit
import Verif.Spec.Rc4
import Verif.Spec.Rng
import Verif.Spec.Salsa
import Verif.Spec.Simd
import Verif.Spec.Word
import Verif.Spec.Work
import Verif.Tests.ChaCha
import Verif.Tests.Others
import Verif.Tests.Rng
import Verif.Tests.Salsa
import Verif.Tests.Util
