import Verif.Props.Simple
import Verif.Props.Merge
import Verif.Props.Network
import Verif.Props.Batcher
import Verif.Props.Comparators
import Verif.Props.SwapIf
import Verif.Props.Quick
import Verif.Props.Pdq
import Verif.Props.Lists
import Verif.Props.FixedSize
import Verif.Props.Stable
import Verif.Props.Probes
import Verif.Props.Adapters
import Verif.Props.Hybrid
import Verif.Props.Metrics
import Verif.Props.Bounds
import Verif.Props.Drop
import Verif.Props.Mel
import Verif.Props.Slab
import Verif.Props.Splay
import Verif.Props.Cartesian
import Verif.Props.Poplar
import Verif.Props.Smooth
import Verif.Props.Spin
import Verif.Props.Tim
import Verif.Props.Verge
import Verif.Props.Counting
import Verif.Props.MergeInsertion
import Verif.Props.Ska
import Verif.Props.Grail
import Verif.Props.Wiki
import Verif.Props.SpreadNum
import Verif.Props.SpreadStr
import Verif.Props.WorstCase
import Verif.Props.BestCase
import Verif.Props.Default
import Verif.Props.Mannila
import Verif.Props.ProbesCost
import Verif.Props.Facade
import Verif.Props.Bitops
import Verif.Props.NodeList
import Verif.Props.SpinCost
import Verif.Props.SplayCost
import Verif.Props.Compose
import Verif.Props.NetStable
import Verif.Props.TimCost
import Verif.Props.VergeCost
import Verif.Props.ContainerAware
import Verif.Props.Select
import Verif.Props.BestCase2
import Verif.Props.BestCase3
import Verif.Props.Memory
import Verif.Props.AnyCompare
import Verif.Props.Throwing
import Verif.Props.MoveWeight
import Verif.Props.CmpWeight
import Verif.Props.CmpOptimal
import Verif.Props.CmpMergeInsertion
import Verif.Props.NetOptimal
