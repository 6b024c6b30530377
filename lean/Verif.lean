import Verif.Model.StdOps
import Verif.Model.Serde
import Verif.Spec
import Verif.Proof.Ops
import Verif.Proof.Counts
import Verif.Props.Arith
import Verif.Props.Bits
import Verif.Props.Casts
import Verif.Props.Compare
import Verif.Props.Construct
import Verif.Props.Div
import Verif.Props.Errors
import Verif.Props.Shifts
import Verif.Props.Tests
import Verif.Props.ToPrim
import Verif.Props.WrapUnsigned
import Verif.Props.WrapSigned
import Verif.Props.Operators
import Verif.Props.Text
import Verif.Props.Random
import Verif.Props.Serial
import Verif.Props.Digits
import Verif.Props.Program
import Verif.Props.Heap
import Verif.Props.WrapRest
import Verif.Props.Overflow
import Verif.Props.BitVector
import Verif.Props.Laws
import Verif.Props.LawsCast
import Verif.Props.LawsOrder
import Verif.Props.Clients
import Verif.Props.Threads
import Verif.Props.Memory
import Verif.Props.TextLaws
import Verif.TInstr
import Verif.Model.Typed
import Verif.SpecTyped
import Verif.Proof.Typed
import Verif.Props.Typed
import Verif.Props.Fuzz
import Verif.Conform
import Verif.Props.Counting
import Verif.Props.Scratch
import Verif.Props.Checks
import Verif.Props.HeapErrors
import Verif.Props.ErrorText
import Verif.Props.Machine
import Verif.Props.TypedHeap
import Verif.Props.Sharing
import Verif.Props.TypedMachine
import Verif.Props.Hashing
import Verif.Props.TypedSharing
import Verif.Props.Algorithms
import Verif.Props.Work
import Verif.Props.Trace
import Verif.Props.Linear
import Verif.Props.Panics
import Verif.Props.WorkText
import Verif.Props.TypedErrorText
import Verif.Props.Formatter
import Verif.Props.WorkProgram
import Verif.Props.TraceAsk
import Verif.Props.TypedWork
import Verif.Props.TraceTyped
import Verif.Props.TracePrim
import Verif.Props.TraceMul
import Verif.Props.TraceText
