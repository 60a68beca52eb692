import Verif.Go
import Verif.Lemmas.Basic
import Verif.Props.HashTable
import Verif.Props.SipHash
import Verif.Props.SipAsm
import Verif.Props.Murmur3
import Verif.Props.Jenkins
import Verif.Props.Spooky
import Verif.Props.Metro
import Verif.Props.Farm
import Verif.Props.Gomap
import Verif.Props.Small
import Verif.Props.Keccak
import Verif.Props.Threefish
import Verif.Props.Ht
import Verif.Props.Smhasher
import Verif.Props.Hashf
import Verif.Props.KeccakC
import Verif.Props.Sizes
import Verif.Props.HtMain
import Verif.Props.HtMain2
import Verif.Props.RBetween
import Verif.Props.Bench
import Verif.Props.JenkinsExample
import Verif.Props.HashfConc
import Verif.Props.Print
import Verif.Props.Halloc
import Verif.Props.RunSM
import Verif.Props.FloatCheck
import Verif.Props.Trace
import Verif.Props.SipExample
import Verif.Props.KeccakUse
import Verif.Props.Recover
import Verif.Props.StreamHeap
import Verif.Props.ThreefishConc
import Verif.Props.Reach
import Verif.Props.NoDups
import Verif.Props.Balanced
import Verif.Props.KeccakBits
import Verif.Props.NoDupsSM
import Verif.Props.SmCalls
import Verif.Props.JenkinsCalls
import Verif.Props.KeccakBuild
import Verif.Props.SpookyBalanced
import Verif.Props.FarmBalanced
import Verif.Props.MetroSteer
import Verif.Props.Floods
import Verif.Props.HtConc
import Verif.Props.KeccakAny
import Verif.Props.Quality
import Verif.Props.Parking
import Verif.Props.Random
import Verif.Props.Spread
import Verif.Props.Coins
import Verif.Props.Alarm
import Verif.Props.Longest
import Verif.Props.Certain
import Verif.Props.NextInsert
import Verif.Props.Murmur3Short
import Verif.Props.Printed
import Verif.Props.Bits
import Verif.Props.DupCounts
import Verif.Props.Counter
import Verif.Props.StatBounds
import Verif.Props.StatRuns
